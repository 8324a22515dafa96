import Verif.C.Basic
import Mathlib.Data.Int.Log

/-!
# IEEE-754 rounding on rationals

Finite `float`/`double` values are rationals; every operation is the exact rational operation followed by
round-to-nearest-even (IEEE 754-2008 §4.3.1, §3.4).  Infinities/NaN end the modelled execution (`Stop.nonfinite`); the
sign of zero is not represented.
-/

namespace Verif

/-- Nearest integer, ties to even. -/
def roundEven (q : ℚ) : ℤ :=
  let f := ⌊q⌋
  let d := q - f
  if d < 1 / 2 then f else if 1 / 2 < d then f + 1 else if f % 2 = 0 then f else f + 1

/-- A binary interchange format: precision in bits, exponent of the smallest subnormal, overflow exponent. -/
structure Fmt where
  prec : Nat
  emin : ℤ
  emax : ℤ

/-- binary32, C++ `float`. -/
def b32 : Fmt := ⟨24, -149, 128⟩

/-- binary64, C++ `double`. -/
def b64 : Fmt := ⟨53, -1074, 1024⟩

/-- Exponent of the unit in the last place used to round `q`. -/
def ulpExp (F : Fmt) (q : ℚ) : ℤ := max (Int.log 2 |q| - (F.prec - 1)) F.emin

/-- Round to nearest even in format `F`, ignoring overflow. -/
def rnd (F : Fmt) (q : ℚ) : ℚ :=
  (roundEven (q / (2 : ℚ) ^ ulpExp F q) : ℚ) * (2 : ℚ) ^ ulpExp F q

/-- Round to nearest even in format `F`; overflow leaves the modelled domain. -/
def fl (F : Fmt) (q : ℚ) : C ℚ :=
  if |rnd F q| < (2 : ℚ) ^ F.emax then .ok (rnd F q) else .error .nonfinite

/-- `q` is a (finite, overflow aside) value of format `F`. -/
def Representable (F : Fmt) (q : ℚ) : Prop :=
  ∃ (m : ℤ) (e : ℤ), F.emin ≤ e ∧ |m| < 2 ^ F.prec ∧ q = m * (2 : ℚ) ^ e

end Verif
