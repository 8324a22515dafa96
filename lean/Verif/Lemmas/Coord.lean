import Mathlib.Analysis.SpecialFunctions.Trigonometric.Angle
import Mathlib.Tactic.LinearCombination
import Verif.Model.Coord
import Verif.Props.Helper

/-!
# Spherical coordinates
-/

namespace Verif.Coord

open Real

theorem norm_mk (x y : ℝ) : ‖(⟨x, y⟩ : ℂ)‖ = √(x * x + y * y) := by
  rw [Complex.norm_def, Complex.normSq_mk]

theorem atan2_cos (y x : ℝ) : √(x * x + y * y) * cos (atan2 y x) = x := by
  rw [← norm_mk]; exact Complex.norm_mul_cos_arg _

theorem atan2_sin (y x : ℝ) : √(x * x + y * y) * sin (atan2 y x) = y := by
  rw [← norm_mk]; exact Complex.norm_mul_sin_arg _

theorem atan2_range (y x : ℝ) : -π < atan2 y x ∧ atan2 y x ≤ π := ⟨Complex.neg_pi_lt_arg _, Complex.arg_le_pi _⟩

theorem atan2_half (y x : ℝ) (hx : 0 ≤ x) : -(π / 2) ≤ atan2 y x ∧ atan2 y x ≤ π / 2 :=
  abs_le.1 (Complex.abs_arg_le_pi_div_two_iff.2 hx)

theorem deg_rad (x : ℝ) : deg (rad x) = x := by unfold deg rad; field_simp

theorem rad_deg (x : ℝ) : rad (deg x) = x := by unfold deg rad; field_simp

theorem rad_add (x y : ℝ) : rad (x + y) = rad x + rad y := by unfold rad; ring

theorem rad_sub (x y : ℝ) : rad (x - y) = rad x - rad y := by unfold rad; ring

theorem rad_turns (x : ℝ) (k : ℤ) : rad (x + k * 360) = rad x + k * (2 * π) := by unfold rad; ring

theorem cos_rad_turns (x : ℝ) (k : ℤ) : cos (rad (x + k * 360)) = cos (rad x) := by rw [rad_turns, cos_add_int_mul_two_pi]

theorem sin_rad_turns (x : ℝ) (k : ℤ) : sin (rad (x + k * 360)) = sin (rad x) := by rw [rad_turns, sin_add_int_mul_two_pi]

/-- Two angles in degrees with the same direction differ by full turns. -/
theorem turns_of_same_direction {x y : ℝ} (hc : cos (rad x) = cos (rad y)) (hs : sin (rad x) = sin (rad y)) :
    ∃ k : ℤ, x = y + k * 360 := by
  obtain ⟨k, hk⟩ := Real.Angle.angle_eq_iff_two_pi_dvd_sub.1 (Real.Angle.cos_sin_inj hc hs)
  refine ⟨k, ?_⟩
  unfold rad at hk
  have hp := Real.pi_pos
  have : (x - y - k * 360) * π = 0 := by linarith
  have := (mul_eq_zero.1 this).resolve_right hp.ne'
  linarith

theorem fMod_of_same_direction {x y : ℝ} (hc : cos (rad x) = cos (rad y)) (hs : sin (rad x) = sin (rad y)) :
    Helper.fMod x 360 = Helper.fMod y 360 := by
  obtain ⟨k, hk⟩ := turns_of_same_direction hc hs
  rw [hk, Helper.C23_fmod_periodic _ _ (by norm_num)]

/-- The longitude computed from the first two components. -/
noncomputable def lonOf (x y : ℝ) : ℝ := if √(x * x + y * y) ≠ 0 then atan2 y x else 0

/-- The latitude computed from all three. -/
noncomputable def latOf (x y z : ℝ) : ℝ := atan2 z (√(x * x + y * y))

theorem sqrt_sum_eq_zero {x y : ℝ} (h : √(x * x + y * y) = 0) : x = 0 ∧ y = 0 := by
  have h0 : x * x + y * y ≤ 0 := Real.sqrt_eq_zero'.1 h
  constructor <;> nlinarith [mul_self_nonneg x, mul_self_nonneg y]

theorem lonOf_cos (x y : ℝ) : √(x * x + y * y) * cos (lonOf x y) = x := by
  unfold lonOf
  split
  · exact atan2_cos y x
  · rename_i h
    have h := not_not.1 h
    rw [h, (sqrt_sum_eq_zero h).1]; ring

theorem lonOf_sin (x y : ℝ) : √(x * x + y * y) * sin (lonOf x y) = y := by
  unfold lonOf
  split
  · exact atan2_sin y x
  · rename_i h
    have h := not_not.1 h
    rw [h, (sqrt_sum_eq_zero h).2]; ring

theorem lonOf_range (x y : ℝ) : -π < lonOf x y ∧ lonOf x y ≤ π := by
  unfold lonOf
  split
  · exact atan2_range y x
  · exact ⟨by linarith [pi_pos], pi_pos.le⟩

theorem latOf_range (x y z : ℝ) : -(π / 2) ≤ latOf x y z ∧ latOf x y z ≤ π / 2 := atan2_half _ _ (sqrt_nonneg _)

theorem latOf_cos {x y z : ℝ} (h : x * x + y * y + z * z = 1) : cos (latOf x y z) = √(x * x + y * y) := by
  have h1 := atan2_cos z (√(x * x + y * y))
  rw [Real.mul_self_sqrt (by nlinarith [mul_self_nonneg x, mul_self_nonneg y]), h, Real.sqrt_one, one_mul] at h1
  exact h1

theorem latOf_sin {x y z : ℝ} (h : x * x + y * y + z * z = 1) : sin (latOf x y z) = z := by
  have h1 := atan2_sin z (√(x * x + y * y))
  rw [Real.mul_self_sqrt (by nlinarith [mul_self_nonneg x, mul_self_nonneg y]), h, Real.sqrt_one, one_mul] at h1
  exact h1

/-- The common rotation of both conversions. -/
noncomputable def rx (phi lon lat : ℝ) : ℝ := -cos lon * cos lat * sin phi + sin lat * cos phi
noncomputable def ry (lon lat : ℝ) : ℝ := -sin lon * cos lat
noncomputable def rz (phi lon lat : ℝ) : ℝ := cos lon * cos lat * cos phi + sin lat * sin phi

theorem rot_norm (phi lon lat : ℝ) :
    rx phi lon lat * rx phi lon lat + ry lon lat * ry lon lat + rz phi lon lat * rz phi lon lat = 1 := by
  unfold rx ry rz
  have h1 := sin_sq_add_cos_sq phi
  have h2 := sin_sq_add_cos_sq lon
  have h3 := sin_sq_add_cos_sq lat
  linear_combination (cos lon ^ 2 * cos lat ^ 2 + sin lat ^ 2) * h1 + cos lat ^ 2 * h2 + h3

/-- The rotated direction in spherical coordinates. -/
theorem rot_spherical (phi lon lat : ℝ) :
    let X := rx phi lon lat
    let Y := ry lon lat
    let Z := rz phi lon lat
    cos (latOf X Y Z) * cos (lonOf X Y) = X ∧ cos (latOf X Y Z) * sin (lonOf X Y) = Y ∧ sin (latOf X Y Z) = Z := by
  have hn := rot_norm phi lon lat
  simp only
  refine ⟨?_, ?_, latOf_sin hn⟩
  · rw [latOf_cos hn, lonOf_cos]
  · rw [latOf_cos hn, lonOf_sin]

theorem h2e_eq (azimuth altitude latitude lst : ℝ) : horizontalToEquatorial azimuth altitude latitude lst =
    ⟨Helper.fMod (lst - deg (lonOf (rx (rad latitude) (rad azimuth) (rad altitude)) (ry (rad azimuth) (rad altitude)))) 360,
      deg (latOf (rx (rad latitude) (rad azimuth) (rad altitude)) (ry (rad azimuth) (rad altitude))
        (rz (rad latitude) (rad azimuth) (rad altitude)))⟩ := rfl

/-- Hour angle as used by `equatorialToHorizontal`. -/
noncomputable def hourAngle (ra lst : ℝ) : ℝ := if 0 ≤ lst - ra then rad (lst - ra) else rad (lst - ra + 360)

/-- Azimuth in `[0, 2π)`. -/
noncomputable def azOf (x y : ℝ) : ℝ := if lonOf x y < 0 then lonOf x y + 2 * π else lonOf x y

theorem e2h_eq (ra dec latitude lst : ℝ) : equatorialToHorizontal ra dec latitude lst =
    ⟨deg (azOf (rx (rad latitude) (hourAngle ra lst) (rad dec)) (ry (hourAngle ra lst) (rad dec))),
      deg (latOf (rx (rad latitude) (hourAngle ra lst) (rad dec)) (ry (hourAngle ra lst) (rad dec))
        (rz (rad latitude) (hourAngle ra lst) (rad dec)))⟩ := rfl

theorem cos_hourAngle (ra lst : ℝ) : cos (hourAngle ra lst) = cos (rad (lst - ra)) := by
  unfold hourAngle
  split
  · rfl
  · have := cos_rad_turns (lst - ra) 1
    rw [Int.cast_one, one_mul] at this
    exact this

theorem sin_hourAngle (ra lst : ℝ) : sin (hourAngle ra lst) = sin (rad (lst - ra)) := by
  unfold hourAngle
  split
  · rfl
  · have := sin_rad_turns (lst - ra) 1
    rw [Int.cast_one, one_mul] at this
    exact this

theorem azOf_range (x y : ℝ) : 0 ≤ azOf x y ∧ azOf x y < 2 * π := by
  have h := lonOf_range x y
  have hp := pi_pos
  unfold azOf
  split <;> constructor <;> linarith

theorem azOf_cos (x y : ℝ) : cos (azOf x y) = cos (lonOf x y) := by
  unfold azOf; split
  · exact cos_add_two_pi _
  · rfl

theorem azOf_sin (x y : ℝ) : sin (azOf x y) = sin (lonOf x y) := by
  unfold azOf; split
  · exact sin_add_two_pi _
  · rfl

theorem deg_az_range (x y : ℝ) : 0 ≤ deg (azOf x y) ∧ deg (azOf x y) < 360 := by
  obtain ⟨h1, h2⟩ := azOf_range x y
  have hp := pi_pos
  unfold deg
  refine ⟨by positivity, ?_⟩
  rw [div_lt_iff₀ hp]; nlinarith

theorem deg_lat_range {a : ℝ} (h : -(π / 2) ≤ a ∧ a ≤ π / 2) : -90 ≤ deg a ∧ deg a ≤ 90 := by
  have hp := pi_pos
  unfold deg
  rw [le_div_iff₀ hp, div_le_iff₀ hp]
  constructor <;> nlinarith [h.1, h.2]

theorem rad_lat_range {a : ℝ} (h : -90 ≤ a ∧ a ≤ 90) : -(π / 2) ≤ rad a ∧ rad a ≤ π / 2 := by
  have hp := pi_pos
  unfold rad
  constructor <;> nlinarith [h.1, h.2]

theorem cos_rad_lat_pos {a : ℝ} (h0 : -90 < a) (h1 : a < 90) : 0 < cos (rad a) := by
  have hp := pi_pos
  apply cos_pos_of_mem_Ioo
  unfold rad
  constructor <;> nlinarith

/-- A rotated direction, rotated again, is the direction one started with. -/
theorem rot_twice {phi lon lat lon' lat' : ℝ} (h1 : cos lat' * cos lon' = rx phi lon lat) (h2 : cos lat' * sin lon' = ry lon lat)
    (h3 : sin lat' = rz phi lon lat) :
    rx phi lon' lat' = cos lat * cos lon ∧ ry lon' lat' = cos lat * sin lon ∧ rz phi lon' lat' = sin lat := by
  have hs := sin_sq_add_cos_sq phi
  unfold rx ry rz at *
  refine ⟨?_, ?_, ?_⟩
  · linear_combination (-sin phi) * h1 + cos phi * h3 + (cos lat * cos lon) * hs
  · linear_combination -h2
  · linear_combination cos phi * h1 + sin phi * h3 + sin lat * hs

theorem latOf_eq {lon lat : ℝ} (h : -(π / 2) ≤ lat ∧ lat ≤ π / 2) :
    latOf (cos lat * cos lon) (cos lat * sin lon) (sin lat) = lat := by
  have hn : cos lat * cos lon * (cos lat * cos lon) + cos lat * sin lon * (cos lat * sin lon) + sin lat * sin lat = 1 := by
    have h1 := sin_sq_add_cos_sq lat
    have h2 := sin_sq_add_cos_sq lon
    linear_combination cos lat ^ 2 * h2 + h1
  have hr := latOf_range (cos lat * cos lon) (cos lat * sin lon) (sin lat)
  exact injOn_sin ⟨hr.1, hr.2⟩ ⟨h.1, h.2⟩ (latOf_sin hn)

theorem lonOf_dir {lon lat : ℝ} (h : 0 < cos lat) :
    cos (lonOf (cos lat * cos lon) (cos lat * sin lon)) = cos lon ∧
      sin (lonOf (cos lat * cos lon) (cos lat * sin lon)) = sin lon := by
  have hr : √(cos lat * cos lon * (cos lat * cos lon) + cos lat * sin lon * (cos lat * sin lon)) = cos lat := by
    rw [show cos lat * cos lon * (cos lat * cos lon) + cos lat * sin lon * (cos lat * sin lon) = cos lat ^ 2 by
      linear_combination cos lat ^ 2 * sin_sq_add_cos_sq lon]
    exact Real.sqrt_sq h.le
  have h1 := lonOf_cos (cos lat * cos lon) (cos lat * sin lon)
  have h2 := lonOf_sin (cos lat * cos lon) (cos lat * sin lon)
  rw [hr] at h1 h2
  exact ⟨mul_left_cancel₀ h.ne' h1, mul_left_cancel₀ h.ne' h2⟩

end Verif.Coord
