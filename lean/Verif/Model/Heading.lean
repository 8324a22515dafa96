import Verif.Model.Helper

/-!
# Model of the heading filter in the 100 ms task of `src/main.cpp`
-/

namespace Verif.Main

/-- `main.cpp:475` `uint16_t heading_raw = (AMT22.transfer(0) << 8) | AMT22.transfer(0)`.  Simplification: the two operands are
evaluated left to right (the language leaves the order open). -/
def frame (b0 b1 : UInt8) : UInt16 := (b0.toUInt16 <<< 8) ||| b1.toUInt16

/-- `main.cpp:65,477-482`: one run of the heading filter.  `r32`, `r64` are the roundings to `float` and `double`; `heading` is a
`float`, the scaling, the difference, the product and the sum are computed in `double`. -/
def headingStep (r32 r64 : ℚ → C ℚ) (heading : ℚ) (raw : UInt16) : C ℚ :=
  if Helper.verifyAmtCheckbits raw.toUInt32 then do
    let alpha ← r32 0.3
    let f ← r32 (raw &&& 0x3fff).toNat
    let a ← r64 (f * 360)
    let t ← r64 (a / 16385)
    let d ← r64 (t - heading)
    let p ← r64 (alpha * d)
    let s ← r64 (heading + p)
    r32 s
  else pure heading

/-- The heading after a sequence of encoder words. -/
def headingRun (r32 r64 : ℚ → C ℚ) : List UInt16 → ℚ → C ℚ
  | [], h => pure h
  | w :: ws, h => do
    let h' ← headingStep r32 r64 h w
    headingRun r32 r64 ws h'

/-- The filter of the firmware: IEEE `float` and `double`. -/
abbrev heading : List UInt16 → ℚ → C ℚ := headingRun (fl b32) (fl b64)

/-- The filter in exact arithmetic. -/
abbrev headingExact : List UInt16 → ℚ → C ℚ := headingRun .ok .ok

end Verif.Main
