import Verif.Model.Coord

/-! # Model of the pitch computation in the 100 ms task of `src/main.cpp` -/

namespace Verif.Imu

/-- `main.cpp:471`: `atan2(accel.acceleration.x, accel.acceleration.y) * 180 / PI`, in exact arithmetic. -/
noncomputable def pitch (a : ℝ × ℝ × ℝ) : ℝ := Coord.atan2 a.1 a.2.1 * 180 / Real.pi

end Verif.Imu
