import Verif.C.Float

/-!
# Model of `lib/helper/src/helper.cpp`
-/

namespace Verif

/-- The fields of `struct tm` the code uses.  `tm_mon` is 1-based and `tm_year` is the full year in this code base
(`gnss.cpp:117-119`), contrary to the C convention. -/
structure Tm where
  sec : ℤ
  min : ℤ
  hour : ℤ
  mday : ℤ
  mon : ℤ
  year : ℤ
  deriving DecidableEq, Repr

namespace Helper

/-- `helper.cpp:5-16` `MathHelper::julianDay`, with every `float`/`double` operation rounded as in IEEE 754.
`floor` of a finite float is exact.  Simplification: `int` arithmetic does not overflow. -/
def julianDay (t : Tm) : C ℚ := do
  let (year, mon) := if t.mon ≤ 2 then (t.year - 1, t.mon + 12) else (t.year, t.mon)
  let yf ← fl b32 year
  let q ← fl b32 (yf / 100)
  let A : ℚ := ⌊q⌋
  let d ← fl b32 (2 - A)
  let a4 ← fl b32 (A / 4)
  let B ← fl b32 (d + ⌊a4⌋)
  let yf' ← fl b32 (year + 4716 : ℤ)
  let p ← fl b32 (365.25 * yf')
  let m ← fl b64 (rnd b64 30.6001 * (mon + 1 : ℤ))
  let s1 ← fl b64 (⌊p⌋ + ⌊m⌋)
  let s2 ← fl b64 (s1 + t.mday)
  let s3 ← fl b64 (s2 + B)
  let s4 ← fl b64 (s3 - 1524.5)
  fl b32 s4

section
variable {K : Type} [Field K] [LinearOrder K] [IsStrictOrderedRing K] [FloorRing K]

/-- `helper.cpp:26-29` `MathHelper::f_mod` in exact arithmetic. -/
def fMod (a n : K) : K := a - n * ⌊a / n⌋

/-- `helper.cpp:21` `deltaJulian`, from the value of `julianDay`; `double`/`long double` arithmetic exact. -/
def deltaJulian (jd : ℚ) (t : Tm) : K :=
  (jd : K) - 2451545 + t.hour / 24 + t.min / 60 / 24 + t.sec / 3600 / 24

/-- `helper.cpp:19-24` `MathHelper::getLocalSiderealTimeDegrees`; `double`/`long double` arithmetic exact. -/
def localSiderealTime (t : Tm) (longitude : K) : C K := do
  let jd ← julianDay t
  let d : K := deltaJulian jd t
  let T := d / 36525
  return fMod (280.46061837 + 360.98564736629 * d + 0.000388 * T * T + longitude) 360

end

/-- `helper.cpp:26-29` `f_mod` with IEEE double rounding of each operation. -/
def fModIEEE (a n : ℚ) : C ℚ := do
  let q ← fl b64 (a / n)
  let p ← fl b64 (n * ⌊q⌋)
  fl b64 (a - p)

/-- C's `!x` on `uint32_t`. -/
def lnot (x : UInt32) : UInt32 := if x = 0 then 1 else 0

/-- `(x >> k) & 0x01` of `helper.cpp:39-43` (`x & 0x01` is the case `k = 0`). -/
def bitAt (x k : UInt32) : UInt32 := (x >>> k) &&& 1

/-- `helper.cpp:34-45` `Checksum::verifyAmtCheckbits`. -/
def verifyAmtCheckbits (data : UInt32) : Bool :=
  let even := data &&& 0x5555
  let odd := data &&& 0xAAAA
  let even_parity := lnot (bitAt even 12 ^^^ bitAt even 10 ^^^ bitAt even 8 ^^^
    bitAt even 6 ^^^ bitAt even 4 ^^^ bitAt even 2 ^^^ bitAt even 0)
  let odd_parity := lnot (bitAt odd 13 ^^^ bitAt odd 11 ^^^ bitAt odd 9 ^^^
    bitAt odd 7 ^^^ bitAt odd 5 ^^^ bitAt odd 3 ^^^ bitAt odd 1)
  let K1 := bitAt data 15
  let K0 := bitAt data 14
  even_parity == K0 && odd_parity == K1

end Helper
end Verif
