import Verif.C.Strto
import Verif.Model.Helper

/-!
# Model of `lib/gnss/src/gnss.cpp`: NMEA parsing

`float` values are rationals, every operation rounded to binary32.  `char *ptr` is a `Ptr` (the bytes still in front of
the pointer), so reading behind the terminating NUL is `oobRead`.  Simplifications: strings are shorter than `2^31`
bytes; floating-point contraction (fused multiply-add) is not modelled; the sign of zero is not represented.
-/

namespace Verif.Nmea
open Verif

/-- `gnss.h:30-43`: the public state of a `GNSS` object. -/
structure Gnss where
  utc : Tm
  valid : Bool
  satUsed : UInt32
  satView : UInt32
  dilution : ℚ
  latitude : ℚ
  longitude : ℚ
  north : Bool
  east : Bool
  speed : ℚ
  course : ℚ
  altitude : ℚ
  deriving DecidableEq, Repr

/-- `gnss.cpp:7-11` constructor with the default member initialisers of `gnss.h:30-43`. -/
def Gnss.init (lat lon : ℚ) : Gnss where
  utc := ⟨0, 0, 0, 0, 0, 0⟩
  valid := false
  satUsed := 0
  satView := 0
  dilution := 0
  latitude := lat
  longitude := lon
  north := true
  east := true
  speed := 0
  course := 0
  altitude := 0

/-- `gnss.h:46` -/
def RMC_HEADER : List UInt8 := [36, 71, 80, 82, 77, 67]
/-- `gnss.h:47` -/
def GGA_HEADER : List UInt8 := [36, 71, 80, 71, 71, 65]
/-- `gnss.h:48` -/
def GSV_HEADER : List UInt8 := [36, 71, 80, 71, 83, 86]

/-- A plain `char` converted to `uint32_t`: sign-extended where `char` is signed. -/
def charToU32 (P : Platform) (b : UInt8) : UInt32 :=
  if P.charSigned && 128 ≤ b then b.toUInt32 + 0xFFFFFF00 else b.toUInt32

/-- `uint32_t x = <long>`: reduction modulo `2^32`. -/
def longToU32 (z : ℤ) : UInt32 := UInt32.ofInt z

/-- `gnss.cpp:155-157`: `uint32_t pos = s.find(c)`. `none` is `npos`, stored as `0xFFFFFFFF`. -/
def verifyPos (s : List UInt8) (c : UInt8) : Option Nat := findSub [c] s

/-- `gnss.cpp:160-170`: the comparison, once `startPos`/`endPos` (as loop bounds) are known. -/
def compareChecksum (P : Platform) (s : List UInt8) (from' endPos : Nat) : C Bool := do
  let (expected, _) ← strtol P true ((cStr s).drop (endPos + 1))
  let actual := ((s.drop from').take (endPos - from')).foldl (fun acc b => acc ^^^ charToU32 P b) 0
  return longToU32 expected == actual

/-- `gnss.cpp:152-171` `GNSS::verifyChecksum`.  `find` results are stored in `uint32_t` and compared with
`std::string::npos` (a `size_t`): on a 32-bit `size_t` the test works, on a 64-bit one it never holds, so a missing `'$'`
makes the loop start at `0xFFFFFFFF + 1 = 0` and a missing `'*'` makes `c_str() + 0xFFFFFFFF + 1` point far outside. -/
def verifyChecksum (P : Platform) (s : List UInt8) : C Bool :=
  match verifyPos s 36, verifyPos s 42 with
  | some a, some b => compareChecksum P s (a + 1) b
  | none, some b =>
    match P.word with
    | .w32 => .ok false
    | .w64 => compareChecksum P s 0 b
  | _, none =>
    match P.word with
    | .w32 => .ok false
    | .w64 => .error (.ub .oobRead)

/-- `floor(x)` for a `float`. -/
def ffloor (x : ℚ) : ℚ := (⌊x⌋ : ℤ)

/-- `gnss.cpp:26-29` and `88-91`: hour, minute, second from the raw `hhmmss.sss` number.  `int` to `float` conversions and
all `float` operations round; the conversions back to `int` are checked. -/
def splitTime (raw : ℚ) : C (ℤ × ℤ × ℤ) := do
  let h ← fl b32 (raw / 10000)
  let hour ← castInt (ffloor h)
  let m ← fl b32 (raw / 100)
  let hf ← fl b32 hour
  let h100 ← fl b32 (hf * 100)
  let mf ← fl b32 (ffloor m - h100)
  let min ← castInt mf
  let h10000 ← fl b32 (hf * 10000)
  let d ← fl b32 (ffloor raw - h10000)
  let minf ← fl b32 min
  let m100 ← fl b32 (minf * 100)
  let sf ← fl b32 (d - m100)
  let sec ← castInt sf
  return (hour, min, sec)

/-- `gnss.cpp:41,50,111,112`: `floor(raw / 100.0f) + (raw - floor(raw / 100.0f) * 100.0f) / 60.0f`. -/
def toDegrees (raw : ℚ) : C ℚ := do
  let q ← fl b32 (raw / 100)
  let d := ffloor q
  let d100 ← fl b32 (d * 100)
  let m ← fl b32 (raw - d100)
  let m60 ← fl b32 (m / 60)
  fl b32 (d + m60)

/-- `(north ? 1 : -1) * x`. -/
def signed (positive : Bool) (x : ℚ) : ℚ := if positive then x else -x

/-- `gnss.cpp:39-42,48-51,109-113`: the stored angle is replaced only `if (valid)`. -/
def updateAngle (valid positive : Bool) (raw old : ℚ) : C ℚ :=
  if valid then (do let d ← toDegrees raw; return signed positive d) else .ok old

/-- `ptr += (*ptr == ',') ? 1 : 2` (`gnss.cpp:34,43,52,99,105`). -/
def skipChar (p : Ptr) : C Ptr := do
  let c ← deref p
  return if c = 44 then p.drop 1 else p.drop 2

/-- `1.9438444924f` (`gnss.cpp:54`). -/
def knotsPerMps : ℚ := rnd b32 1.9438444924

/-- `gnss.cpp:60-63`: day, month, year from the raw date.  `rawDate / 10000L` and the following products are evaluated in
`long` on the 64-bit target; on the 32-bit target the products `int * long` are 32-bit signed and may overflow. -/
def splitDate (P : Platform) (raw : UInt32) : C (ℤ × ℤ × ℤ) :=
  let r : ℤ := raw.toNat
  let mday := r / 10000
  let mon := r / 100 - mday * 100
  let year := r - mday * 10000 - mon * 100 + 2000
  if P.word = .w32 ∧ 2 ^ 31 ≤ mday * 10000 then .error (.ub .signedOverflow)
  else .ok (mday, mon, year)

/-- `gnss.cpp:26-63`: the field parser of `fromRMC`; `ptr` points behind the header and its comma. -/
def rmcBody (P : Platform) (g : Gnss) (ptr : Ptr) : C Gnss := do
  let (rawTimestamp, ptr) ← strtof P ptr
  let (hour, min, sec) ← splitTime rawTimestamp
  let ptr := ptr.drop 1
  let c ← deref ptr
  let valid := c == 65
  let ptr ← skipChar ptr
  let (rawLat, ptr) ← strtof P ptr
  let ptr := ptr.drop 1
  let c ← deref ptr
  let north := c == 78
  let latitude ← updateAngle valid north rawLat g.latitude
  let ptr ← skipChar ptr
  let (rawLon, ptr) ← strtof P ptr
  let ptr := ptr.drop 1
  let c ← deref ptr
  let east := c == 69
  let longitude ← updateAngle valid east rawLon g.longitude
  let ptr ← skipChar ptr
  let (rawSpeed, ptr) ← strtof P ptr
  let speed ← fl b32 (rawSpeed / knotsPerMps)
  let ptr := ptr.drop 1
  let (course, ptr) ← strtof P ptr
  let ptr := ptr.drop 1
  let (rawDate, _) ← strtol P false ptr
  let (mday, mon, year) ← splitDate P (longToU32 rawDate)
  return { g with utc := ⟨sec, min, hour, mday, mon, year⟩, valid, latitude, longitude, north, east, speed, course }

/-- `gnss.cpp:88-122`: the field parser of `fromGGA`. -/
def ggaBody (P : Platform) (g : Gnss) (ptr : Ptr) : C Gnss := do
  let (rawTimestamp, ptr) ← strtof P ptr
  let (hour, min, sec) ← splitTime rawTimestamp
  let ptr := ptr.drop 1
  let (rawLat, ptr) ← strtof P ptr
  let ptr := ptr.drop 1
  let c ← deref ptr
  let north := c == 78
  let ptr ← skipChar ptr
  let (rawLon, ptr) ← strtof P ptr
  let ptr := ptr.drop 1
  let c ← deref ptr
  let east := c == 69
  let ptr ← skipChar ptr
  let (rawLong, ptr) ← strtol P false ptr
  let valid := decide (longToU32 rawLong > 0)
  let latitude ← updateAngle valid north rawLat g.latitude
  let longitude ← updateAngle valid east rawLon g.longitude
  let ptr := ptr.drop 1
  let (sats, ptr) ← strtol P false ptr
  let ptr := ptr.drop 1
  let (dilution, ptr) ← strtof P ptr
  let ptr := ptr.drop 1
  let (altitude, _) ← strtof P ptr
  return { g with
    utc := { g.utc with sec := sec, min := min, hour := hour }, valid, latitude, longitude, north, east,
    satUsed := longToU32 sats, dilution, altitude }

/-- `gnss.cpp:140-147`: the field parser of `fromGSV`. -/
def gsvBody (P : Platform) (g : Gnss) (ptr : Ptr) : C Gnss := do
  let (_, ptr) ← strtol P false ptr
  let ptr := ptr.drop 1
  let (_, ptr) ← strtol P false ptr
  let ptr := ptr.drop 1
  let (v, _) ← strtol P false ptr
  return { g with satView := longToU32 v }

/-- `gnss.cpp:13-68` `GNSS::fromRMC`. -/
def fromRMC (P : Platform) (g : Gnss) (s : List UInt8) : C (Bool × Gnss) := do
  let ok ← verifyChecksum P s
  if ok then
    match findSub RMC_HEADER s with
    | none => return (false, g)
    | some pos =>
      let g' ← rmcBody P g ((cStr s).drop (pos + RMC_HEADER.length + 1))
      return (true, g')
  else return (false, g)

/-- `gnss.cpp:74-125` `GNSS::fromGGA`.  The field offset uses `RMC_HEADER.length()` (line 88), which equals the length of
`GGA_HEADER`. -/
def fromGGA (P : Platform) (g : Gnss) (s : List UInt8) : C (Bool × Gnss) := do
  let ok ← verifyChecksum P s
  if ok then
    match findSub GGA_HEADER s with
    | none => return (false, g)
    | some pos =>
      let g' ← ggaBody P g ((cStr s).drop (pos + RMC_HEADER.length + 1))
      return (true, g')
  else return (false, g)

/-- `gnss.cpp:127-150` `GNSS::fromGSV`. -/
def fromGSV (P : Platform) (g : Gnss) (s : List UInt8) : C (Bool × Gnss) := do
  let ok ← verifyChecksum P s
  if ok then
    match findSub GSV_HEADER s with
    | none => return (false, g)
    | some pos =>
      let g' ← gsvBody P g ((cStr s).drop (pos + GSV_HEADER.length + 1))
      return (true, g')
  else return (false, g)

/-- `gnss.cpp:173-185` `GNSS::fromNMEA`. -/
def fromNMEA (P : Platform) (g : Gnss) (s : List UInt8) : C (Bool × Gnss) :=
  if (findSub RMC_HEADER s).isSome then fromRMC P g s
  else if (findSub GGA_HEADER s).isSome then fromGGA P g s
  else if (findSub GSV_HEADER s).isSome then fromGSV P g s
  else .ok (false, g)

/-- `rawInput.substr(startPos, endPos - startPos + 1)` (`gnss.cpp:201`): a negative `int` count becomes a huge `size_t`, i.e.
"to the end of the string". -/
def substr (s : List UInt8) (startPos endPos : Nat) : List UInt8 :=
  let count : ℤ := (endPos : ℤ) - startPos + 1
  if count < 0 then s.drop startPos else (s.drop startPos).take count.toNat

/-- `gnss.cpp:193-205`: the `do … while` loop; `none` means that `fuel` iterations did not suffice. -/
def fromBufferLoop (P : Platform) (s : List UInt8) : (fuel : Nat) → (endPos sentences : Nat) → Gnss →
    C (Option (Nat × Gnss))
  | 0, _, _, _ => .ok none
  | fuel + 1, endPos, sentences, g =>
    match findFrom [36] s endPos, findFrom [10] s (endPos + 1) with
    | some a, some b => do
      let (ok, g') ← fromNMEA P g (substr s a b)
      fromBufferLoop P s fuel b (if ok then sentences + 1 else sentences) g'
    | _, _ => .ok (some (sentences, g))

/-- `gnss.cpp:187-208` `GNSS::fromBuffer`: number of accepted sentences and new state.  `length + 1` iterations always suffice
(theorem `C21_terminates`). -/
def fromBuffer (P : Platform) (g : Gnss) (buffer : List UInt8) : C (Option (Nat × Gnss)) :=
  fromBufferLoop P buffer (buffer.length + 1) 0 0 g

end Verif.Nmea
