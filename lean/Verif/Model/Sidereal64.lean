import Verif.Model.Helper

/-!
# Local sidereal time in IEEE arithmetic

`Model/Helper.lean` treats the `double` and `long double` arithmetic of `getLocalSiderealTimeDegrees` as exact.  Here every operation
rounds.  `long double` is a format `L` (binary64 on the ESP32, the 80-bit extended format on the x86 test host); literals with suffix `L`
are rounded to it.
-/

namespace Verif.Helper

/-- `helper.cpp:21`: `deltaJulian`.  The first subtraction is in `float` (`float - long`), the others in `long double`; the result is
stored in a `double`. -/
def deltaJulian64 (L : Fmt) (jd : ℚ) (t : Tm) : C ℚ := do
  let a ← fl b32 (jd - 2451545)
  let h ← fl L (t.hour / 24)
  let s ← fl L (a + h)
  let m ← fl L (t.min / 60)
  let m ← fl L (m / 24)
  let s ← fl L (s + m)
  let c ← fl L (t.sec / 3600)
  let c ← fl L (c / 24)
  let s ← fl L (s + c)
  fl b64 s

/-- `helper.cpp:19-24` `MathHelper::getLocalSiderealTimeDegrees`. -/
def localSiderealTime64 (L : Fmt) (t : Tm) (longitude : ℚ) : C ℚ := do
  let jd ← julianDay t
  let d ← deltaJulian64 L jd t
  let T ← fl L (d / 36525)
  let T ← fl b64 T
  let p ← fl L (rnd L 360.98564736629 * d)
  let s ← fl L (rnd L 280.46061837 + p)
  let u ← fl L (rnd L 0.000388 * T)
  let v ← fl L (u * T)
  let s ← fl L (s + v)
  let s ← fl L (s + longitude)
  let a ← fl b64 s
  fModIEEE a 360

end Verif.Helper
