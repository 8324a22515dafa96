import Verif.Model.Imu32

/-!
# The gyroscope functions of `lib/lsm6wrapper/src/lsm6wrapper.cpp` in IEEE arithmetic

The firmware calls `calibrate` only; the others are offered by the class.
-/

namespace Verif.Gyro32

open Verif.Imu

/-- `lsm6wrapper.cpp:82-88` `gyroSample(samples, offset)`; the indices are `uint32_t`, `v` is what the sensor reports. -/
def gyroSample (a : List ℚ) (offset : Nat) (v : ℚ × ℚ × ℚ) : C (List ℚ) := do
  let a ← put a (offset * 3 % 2 ^ 32) v.1
  let a ← put a ((offset * 3 % 2 ^ 32 + 1) % 2 ^ 32) v.2.1
  put a ((offset * 3 % 2 ^ 32 + 2) % 2 ^ 32) v.2.2

/-- Samples stored one after the other from `offset` on. -/
def gather : (offset : Nat) → List (ℚ × ℚ × ℚ) → List ℚ → C (List ℚ)
  | _, [], a => .ok a
  | k, v :: vs, a => do
    let a ← gyroSample a k v
    gather (k + 1) vs a

/-- Which `abs` the compiler finds for a `float` argument: `std::abs(float)` (or the macro of Arduino), or `int abs(int)` of `stdlib.h`. -/
inductive Overload where
  | real
  | int
  deriving DecidableEq

/-- Conversion of a `float` to `int` (32 bits): towards zero, undefined if out of range. -/
def toInt (v : ℚ) : C ℤ :=
  let z := if 0 ≤ v then ⌊v⌋ else ⌈v⌉
  if -2 ^ 31 ≤ z ∧ z < 2 ^ 31 then .ok z else .error (.ub .floatToInt)

/-- `abs(v)`; `abs(INT_MIN)` overflows. -/
def absOf : Overload → ℚ → C ℚ
  | .real, v => .ok |v|
  | .int, v => do
    let z ← toInt v
    if z = -2 ^ 31 then .error (.ub .signedOverflow) else return (|z| : ℤ)

/-- `lsm6wrapper.cpp:71`: `abs(v) > 0.01 ? v : 0.`; the comparison is one of `double`s. -/
def clip (o : Overload) (v : ℚ) : C ℚ := do
  let a ← absOf o v
  let limit ← fl b64 0.01
  return if a > limit then v else 0

/-- `lsm6wrapper.cpp:68-74` `clipGyroNoise`. -/
def clipGyroNoise (o : Overload) (v : ℚ × ℚ × ℚ) : C (ℚ × ℚ × ℚ) := do
  let x ← clip o v.1
  let y ← clip o v.2.1
  let z ← clip o v.2.2
  return (x, y, z)

/-- `lsm6wrapper.cpp:34-36` `setCalibration`, `lsm6wrapper.h:37`: the offsets, before and after. -/
def gyrOffset : ℚ × ℚ × ℚ := (0, 0, 0)

/-- `lsm6wrapper.cpp:59-61` `calibrate`, gyroscope part. -/
def calibrate (offset v : ℚ × ℚ × ℚ) : C (ℚ × ℚ × ℚ) := do
  let x ← fl b32 (v.1 - offset.1)
  let y ← fl b32 (v.2.1 - offset.2.1)
  let z ← fl b32 (v.2.2 - offset.2.2)
  return (x, y, z)

/-- `main.cpp:84,470`: the global `gyro` (zero at power-up, never read from the sensor) after `n` runs of the 100 ms task.  It is printed in
`main.cpp:547`. -/
def firmwareGyro : (n : Nat) → C (ℚ × ℚ × ℚ)
  | 0 => .ok (0, 0, 0)
  | n + 1 => do
    let g ← firmwareGyro n
    calibrate gyrOffset g

end Verif.Gyro32
