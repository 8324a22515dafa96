import Mathlib.Algebra.Order.Field.Basic
import Mathlib.Algebra.Order.Ring.Cast

/-!
# Specification vocabulary for the Stellarium protocol codec

Independent of the model: little-endian byte strings and "nearest integer".
-/

namespace Verif.Spec

/-- The `k` bytes of `n` in little-endian order (least significant first; bits above `8k` are dropped). -/
def le : (k : Nat) → (n : Nat) → List UInt8
  | 0, _ => []
  | k + 1, n => UInt8.ofNat (n % 256) :: le k (n / 256)

/-- The number denoted by a little-endian byte string. -/
def leVal : List UInt8 → Nat
  | [] => 0
  | b :: bs => b.toNat + 256 * leVal bs

/-- Bytes `i, i+1, …, i+k-1` of a memory. -/
def slice (mem : List UInt8) (i k : Nat) : List UInt8 := (mem.drop i).take k

/-- `z` is the integer nearest to `x`, ties rounded up. -/
def IsNearest {K : Type} [Field K] [LinearOrder K] (x : K) (z : ℤ) : Prop :=
  x - 1 / 2 < (z : K) ∧ (z : K) ≤ x + 1 / 2

/-- The 24-byte "current position" message of the Stellarium telescope protocol: length 24, type 0, time, right
ascension and declination as fractions of a full turn in units of `2^-32`, status 0. -/
def positionMessage (timestamp raUnits decUnits : Nat) : List UInt8 :=
  le 2 24 ++ le 2 0 ++ le 8 timestamp ++ le 4 raUnits ++ le 4 decUnits ++ le 4 0

end Verif.Spec
