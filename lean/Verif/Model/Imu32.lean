import Verif.Model.Imu
import Verif.Model.Coord64

/-!
# The accelerometer filter and the pitch in IEEE arithmetic

`Model/Imu.lean` treats `float` as an exact field.  Storing samples involves no arithmetic, so `Imu ℚ` is the ring buffer with `float`
values; here the mean, the calibration and the pitch are computed with every operation rounded.
-/

namespace Verif.Imu32

open Verif.Imu

/-- `lsm6wrapper.cpp:115-120`: the loop of `meanVec3`, sums in `float`; `k` iterations remain. -/
def sumLoop (a : List ℚ) (i : Nat) : (k : Nat) → ℚ × ℚ × ℚ → C (ℚ × ℚ × ℚ)
  | 0, acc => .ok acc
  | k + 1, acc => do
    let x ← get a (3 * i)
    let sx ← fl b32 (acc.1 + x)
    let y ← get a (3 * i + 1)
    let sy ← fl b32 (acc.2.1 + y)
    let z ← get a (3 * i + 2)
    let sz ← fl b32 (acc.2.2 + z)
    sumLoop a (i + 1) k (sx, sy, sz)

/-- `lsm6wrapper.cpp:112-126` `meanVec3`; `num_samples` is converted to `float`. -/
def meanVec3 (a : List ℚ) (num : Nat) : C (ℚ × ℚ × ℚ) := do
  let s ← sumLoop a 0 num (0, 0, 0)
  let n ← fl b32 num
  let x ← fl b32 (s.1 / n)
  let y ← fl b32 (s.2.1 / n)
  let z ← fl b32 (s.2.2 / n)
  return (x, y, z)

/-- `lsm6wrapper.cpp:101-109` `getMeanAcc`. -/
def getMeanAcc (m : Imu ℚ) : C (ℚ × ℚ × ℚ) := meanVec3 m.samples ACC_FILTER_SAMPLES

/-- `lsm6wrapper.cpp:31-42` `setCalibration`: the offsets are `float`s (the gyroscope offsets are zero and unused). -/
def setCalibration (m : Imu ℚ) : C (Imu ℚ) := do
  let y ← fl b32 0.19
  let z ← fl b32 (-0.18)
  return { m with offset := (0, y, z) }

/-- `lsm6wrapper.cpp:57-66` `calibrate`, accelerometer part. -/
def calibrate (m : Imu ℚ) (a : ℚ × ℚ × ℚ) : C (ℚ × ℚ × ℚ) := do
  let x ← fl b32 (a.1 - m.offset.1)
  let y ← fl b32 (a.2.1 - m.offset.2.1)
  let z ← fl b32 (a.2.2 - m.offset.2.2)
  return (x, y, z)

/-- `main.cpp:471` `pitch = atan2(accel.acceleration.x, accel.acceleration.y) * 180 / PI`.  `atan2` is what the C library supplies.
`F` is the format of its result and of the product with 180: `float` or `double`, depending on which overload the compiler finds; the
quotient is a `double`, as `PI` is, and `pitch` a `float`. -/
def pitch (F : Fmt) (atan2 : ℚ → ℚ → ℚ) (a : ℚ × ℚ × ℚ) : C ℚ := do
  let p ← fl F (atan2 a.1 a.2.1 * 180)
  let d ← fl b64 (p / Coord64.PI)
  fl b32 d

/-- `main.cpp:469-471`: the pitch computed in the 100 ms task. -/
def measure (F : Fmt) (atan2 : ℚ → ℚ → ℚ) (m : Imu ℚ) : C ℚ := do
  let a ← getMeanAcc m
  let a ← calibrate m a
  pitch F atan2 a

end Verif.Imu32
