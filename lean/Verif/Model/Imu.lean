import Verif.C.Basic

/-!
# Model of `lib/lsm6wrapper/src/lsm6wrapper.cpp`: the accelerometer filter

`float` is an exact field `K` (no rounding).
-/

namespace Verif.Imu

variable {K : Type} [Field K]

/-- `lsm6wrapper.h:10` -/
def ACC_FILTER_SAMPLES : Nat := 50

/-- `lsm6wrapper.h:37,58-59`: `accSamples[150]`, `accSampleCounter`, `acc_offset`. -/
structure Imu (K : Type) where
  samples : List K
  counter : Nat
  offset : K × K × K

/-- `main.cpp:68`: the global object; static storage is zeroed before the constructor (`lsm6wrapper.cpp:4-10`) runs. -/
def init : Imu K := ⟨List.replicate 150 0, 0, 0, 0, 0⟩

/-- `array[i] = v` -/
def put (a : List K) (i : Nat) (v : K) : C (List K) := if i < a.length then .ok (a.set i v) else .error (.ub .oobWrite)

/-- `array[i]` -/
def get (a : List K) (i : Nat) : C K := if h : i < a.length then .ok a[i] else .error (.ub .oobRead)

/-- `lsm6wrapper.cpp:91-98` `accSample`; `v` is what the sensor reports. -/
def accSample (m : Imu K) (v : K × K × K) : C (Imu K) := do
  let s ← put m.samples (m.counter * 3) v.1
  let s ← put s (m.counter * 3 + 1) v.2.1
  let s ← put s (m.counter * 3 + 2) v.2.2
  return { m with samples := s, counter := (m.counter + 1) % ACC_FILTER_SAMPLES }

/-- `lsm6wrapper.cpp:115-120`: the loop of `meanVec3`; `k` iterations remain. -/
def sumLoop (a : List K) (i : Nat) : (k : Nat) → K × K × K → C (K × K × K)
  | 0, acc => .ok acc
  | k + 1, acc => do
    let x ← get a (3 * i)
    let y ← get a (3 * i + 1)
    let z ← get a (3 * i + 2)
    sumLoop a (i + 1) k (acc.1 + x, acc.2.1 + y, acc.2.2 + z)

/-- `lsm6wrapper.cpp:112-126` `meanVec3`. -/
def meanVec3 (a : List K) (num : Nat) : C (K × K × K) := do
  let s ← sumLoop a 0 num (0, 0, 0)
  return (s.1 / num, s.2.1 / num, s.2.2 / num)

/-- `lsm6wrapper.cpp:101-109` `getMeanAcc`. -/
def getMeanAcc (m : Imu K) : C (K × K × K) := meanVec3 m.samples ACC_FILTER_SAMPLES

/-- `lsm6wrapper.cpp:31-42` `setCalibration` (the gyroscope offsets are zero and unused). -/
def setCalibration (m : Imu K) : Imu K := { m with offset := (0, 0.19, -0.18) }

/-- `lsm6wrapper.cpp:57-66` `calibrate`, accelerometer part. -/
def calibrate (m : Imu K) (a : K × K × K) : K × K × K := (a.1 - m.offset.1, a.2.1 - m.offset.2.1, a.2.2 - m.offset.2.2)

/-- A history of samples. -/
def sampleAll : List (K × K × K) → Imu K → C (Imu K)
  | [], m => .ok m
  | v :: vs, m => do
    let m' ← accSample m v
    sampleAll vs m'

end Verif.Imu
