import Verif.Lemmas.Coord
import Verif.Spec.Coord

/-!
# C28, C29, C30: coordinate conversions
-/

namespace Verif.Coord

open Real Spec

/-- **C28** Converting horizontal coordinates to equatorial ones and back returns them, azimuth modulo 360, for every altitude
strictly between the nadir and the zenith. -/
theorem C28_roundtrip (az alt lat lst : ℝ) (h0 : -90 < alt) (h1 : alt < 90) :
    equatorialToHorizontal (horizontalToEquatorial az alt lat lst).ra (horizontalToEquatorial az alt lat lst).dec lat lst
      = ⟨Helper.fMod az 360, alt⟩ := by
  rw [h2e_eq]
  obtain ⟨e1, e2, e3⟩ := rot_spherical (rad lat) (rad az) (rad alt)
  set X := rx (rad lat) (rad az) (rad alt)
  set Y := ry (rad az) (rad alt)
  set Z := rz (rad lat) (rad az) (rad alt)
  rw [e2h_eq]
  simp only [rad_deg]
  set H := hourAngle (Helper.fMod (lst - deg (lonOf X Y)) 360) lst with hH
  have hHc : cos H = cos (lonOf X Y) ∧ sin H = sin (lonOf X Y) := by
    obtain ⟨_, _, k, hk⟩ := Helper.C23_fmod_range (lst - deg (lonOf X Y)) 360 (by norm_num)
    have e : lst - Helper.fMod (lst - deg (lonOf X Y)) 360 = deg (lonOf X Y) + k * 360 := by linarith
    rw [hH, cos_hourAngle, sin_hourAngle, e, cos_rad_turns, sin_rad_turns, rad_deg]
    exact ⟨rfl, rfl⟩
  obtain ⟨r1, r2, r3⟩ := rot_twice (phi := rad lat) (lon' := H) (lat' := latOf X Y Z)
    (by rw [hHc.1]; exact e1) (by rw [hHc.2]; exact e2) e3
  rw [r1, r2, r3]
  have hcp := cos_rad_lat_pos h0 h1
  ext
  · simp only
    obtain ⟨d1, d2⟩ := lonOf_dir (lon := rad az) hcp
    obtain ⟨a1, a2⟩ := deg_az_range (cos (rad alt) * cos (rad az)) (cos (rad alt) * sin (rad az))
    rw [← Helper.C23_fmod_id _ 360 a1 a2]
    apply fMod_of_same_direction
    · rw [rad_deg, azOf_cos, d1]
    · rw [rad_deg, azOf_sin, d2]
  · simp only
    rw [latOf_eq (rad_lat_range ⟨h0.le, h1.le⟩), deg_rad]

/-- **C28** At the zenith and the nadir the altitude is returned. -/
theorem C28_zenith (az alt lat lst : ℝ) (h : alt = 90 ∨ alt = -90) :
    (equatorialToHorizontal (horizontalToEquatorial az alt lat lst).ra (horizontalToEquatorial az alt lat lst).dec lat lst).alt
      = alt := by
  rw [h2e_eq]
  obtain ⟨e1, e2, e3⟩ := rot_spherical (rad lat) (rad az) (rad alt)
  set X := rx (rad lat) (rad az) (rad alt)
  set Y := ry (rad az) (rad alt)
  set Z := rz (rad lat) (rad az) (rad alt)
  rw [e2h_eq]
  simp only [rad_deg]
  set H := hourAngle (Helper.fMod (lst - deg (lonOf X Y)) 360) lst with hH
  have hHc : cos H = cos (lonOf X Y) ∧ sin H = sin (lonOf X Y) := by
    obtain ⟨_, _, k, hk⟩ := Helper.C23_fmod_range (lst - deg (lonOf X Y)) 360 (by norm_num)
    have e : lst - Helper.fMod (lst - deg (lonOf X Y)) 360 = deg (lonOf X Y) + k * 360 := by linarith
    rw [hH, cos_hourAngle, sin_hourAngle, e, cos_rad_turns, sin_rad_turns, rad_deg]
    exact ⟨rfl, rfl⟩
  obtain ⟨r1, r2, r3⟩ := rot_twice (phi := rad lat) (lon' := H) (lat' := latOf X Y Z)
    (by rw [hHc.1]; exact e1) (by rw [hHc.2]; exact e2) e3
  rw [r1, r2, r3, latOf_eq (rad_lat_range (by rcases h with rfl | rfl <;> norm_num)), deg_rad]

/-- **C29** Converting equatorial coordinates to horizontal ones and back returns them, right ascension modulo 360, for every
declination strictly between the poles. -/
theorem C29_roundtrip (ra dec lat lst : ℝ) (h0 : -90 < dec) (h1 : dec < 90) :
    horizontalToEquatorial (equatorialToHorizontal ra dec lat lst).az (equatorialToHorizontal ra dec lat lst).alt lat lst
      = ⟨Helper.fMod ra 360, dec⟩ := by
  rw [e2h_eq]
  obtain ⟨e1, e2, e3⟩ := rot_spherical (rad lat) (hourAngle ra lst) (rad dec)
  set X := rx (rad lat) (hourAngle ra lst) (rad dec)
  set Y := ry (hourAngle ra lst) (rad dec)
  set Z := rz (rad lat) (hourAngle ra lst) (rad dec)
  rw [h2e_eq]
  simp only [rad_deg]
  obtain ⟨r1, r2, r3⟩ := rot_twice (phi := rad lat) (lon' := azOf X Y) (lat' := latOf X Y Z)
    (by rw [azOf_cos]; exact e1) (by rw [azOf_sin]; exact e2) e3
  rw [r1, r2, r3]
  have hcp := cos_rad_lat_pos h0 h1
  obtain ⟨d1, d2⟩ := lonOf_dir (lon := hourAngle ra lst) hcp
  rw [latOf_eq (rad_lat_range ⟨h0.le, h1.le⟩), deg_rad]
  congr 1
  apply fMod_of_same_direction
  · have e : rad (lst - deg (lonOf (cos (rad dec) * cos (hourAngle ra lst)) (cos (rad dec) * sin (hourAngle ra lst))))
        = rad lst - lonOf (cos (rad dec) * cos (hourAngle ra lst)) (cos (rad dec) * sin (hourAngle ra lst)) := by
      rw [rad_sub, rad_deg]
    rw [e, cos_sub, d1, d2, cos_hourAngle, sin_hourAngle, ← cos_sub, ← rad_sub]
    congr 2; ring
  · have e : rad (lst - deg (lonOf (cos (rad dec) * cos (hourAngle ra lst)) (cos (rad dec) * sin (hourAngle ra lst))))
        = rad lst - lonOf (cos (rad dec) * cos (hourAngle ra lst)) (cos (rad dec) * sin (hourAngle ra lst)) := by
      rw [rad_sub, rad_deg]
    rw [e, sin_sub, d1, d2, cos_hourAngle, sin_hourAngle, ← sin_sub, ← rad_sub]
    congr 2; ring

/-- **C30** Both conversions deliver the same direction in the other coordinate system, for all inputs. -/
theorem C30_same_direction (u v lat lst : ℝ) :
    SameDirection u v (horizontalToEquatorial u v lat lst).ra (horizontalToEquatorial u v lat lst).dec lat lst ∧
    SameDirection (equatorialToHorizontal u v lat lst).az (equatorialToHorizontal u v lat lst).alt u v lat lst := by
  have hcosd : ∀ x, cosd x = cos (rad x) := fun _ => rfl
  have hsind : ∀ x, sind x = sin (rad x) := fun _ => rfl
  constructor
  · rw [h2e_eq]
    obtain ⟨e1, e2, e3⟩ := rot_spherical (rad lat) (rad u) (rad v)
    set X := rx (rad lat) (rad u) (rad v)
    set Y := ry (rad u) (rad v)
    set Z := rz (rad lat) (rad u) (rad v)
    obtain ⟨_, _, k, hk⟩ := Helper.C23_fmod_range (lst - deg (lonOf X Y)) 360 (by norm_num)
    have e : lst - Helper.fMod (lst - deg (lonOf X Y)) 360 = deg (lonOf X Y) + k * 360 := by linarith
    obtain ⟨r1, r2, r3⟩ := rot_twice (phi := rad lat) e1 e2 e3
    unfold rx at r1; unfold ry at r2; unfold rz at r3
    refine ⟨?_, ?_, ?_⟩ <;> simp only [hcosd, hsind, e, cos_rad_turns, sin_rad_turns, rad_deg]
    · linear_combination -r1
    · linear_combination -r2
    · linear_combination -r3
  · rw [e2h_eq]
    obtain ⟨e1, e2, e3⟩ := rot_spherical (rad lat) (hourAngle u lst) (rad v)
    set X := rx (rad lat) (hourAngle u lst) (rad v) with hX
    set Y := ry (hourAngle u lst) (rad v) with hY
    set Z := rz (rad lat) (hourAngle u lst) (rad v) with hZ
    unfold rx at hX; unfold ry at hY; unfold rz at hZ
    rw [cos_hourAngle] at hX hZ
    rw [sin_hourAngle] at hY
    refine ⟨?_, ?_, ?_⟩ <;> simp only [hcosd, hsind, rad_deg, azOf_cos, azOf_sin]
    · linear_combination e1 + hX
    · linear_combination e2 + hY
    · linear_combination e3 + hZ

/-- **C30** Ranges of the results, for all inputs. -/
theorem C30_ranges (u v lat lst : ℝ) :
    0 ≤ (horizontalToEquatorial u v lat lst).ra ∧ (horizontalToEquatorial u v lat lst).ra < 360 ∧
    -90 ≤ (horizontalToEquatorial u v lat lst).dec ∧ (horizontalToEquatorial u v lat lst).dec ≤ 90 ∧
    0 ≤ (equatorialToHorizontal u v lat lst).az ∧ (equatorialToHorizontal u v lat lst).az < 360 ∧
    -90 ≤ (equatorialToHorizontal u v lat lst).alt ∧ (equatorialToHorizontal u v lat lst).alt ≤ 90 := by
  rw [h2e_eq, e2h_eq]
  obtain ⟨f1, f2, _⟩ := Helper.C23_fmod_range
    (lst - deg (lonOf (rx (rad lat) (rad u) (rad v)) (ry (rad u) (rad v)))) (360 : ℝ) (by norm_num)
  obtain ⟨g1, g2⟩ := deg_lat_range (latOf_range (rx (rad lat) (rad u) (rad v)) (ry (rad u) (rad v)) (rz (rad lat) (rad u) (rad v)))
  obtain ⟨a1, a2⟩ := deg_az_range (rx (rad lat) (hourAngle u lst) (rad v)) (ry (hourAngle u lst) (rad v))
  obtain ⟨b1, b2⟩ := deg_lat_range (latOf_range (rx (rad lat) (hourAngle u lst) (rad v)) (ry (hourAngle u lst) (rad v))
    (rz (rad lat) (hourAngle u lst) (rad v)))
  exact ⟨f1, f2, g1, g2, a1, a2, b1, b2⟩

/-- **C30** Full turns of the azimuth, the altitude, the latitude or the sidereal time do not matter. -/
theorem C30_turns_h2e (az alt lat lst : ℝ) (i j k l : ℤ) :
    horizontalToEquatorial (az + i * 360) (alt + j * 360) (lat + k * 360) (lst + l * 360)
      = horizontalToEquatorial az alt lat lst := by
  rw [h2e_eq, h2e_eq]
  unfold rx ry rz
  simp only [cos_rad_turns, sin_rad_turns]
  congr 1
  rw [show ∀ d : ℝ, lst + l * 360 - d = (lst - d) + l * 360 by intro d; ring]
  exact Helper.C23_fmod_periodic _ _ (by norm_num) _

/-- **C30** The same for right ascension, declination, latitude and sidereal time in the other direction. -/
theorem C30_turns_e2h (ra dec lat lst : ℝ) (i j k l : ℤ) :
    equatorialToHorizontal (ra + i * 360) (dec + j * 360) (lat + k * 360) (lst + l * 360)
      = equatorialToHorizontal ra dec lat lst := by
  rw [e2h_eq, e2h_eq]
  unfold rx ry rz
  simp only [cos_rad_turns, sin_rad_turns, cos_hourAngle, sin_hourAngle]
  have e : lst + l * 360 - (ra + i * 360) = (lst - ra) + ((l - i : ℤ) : ℝ) * 360 := by push_cast; ring
  rw [e, cos_rad_turns, sin_rad_turns]

/-- **C30** Shifting right ascension and sidereal time together leaves the horizontal position unchanged. -/
theorem C30_rotation_e2h (ra dec lat lst d : ℝ) :
    equatorialToHorizontal (ra + d) dec lat (lst + d) = equatorialToHorizontal ra dec lat lst := by
  rw [e2h_eq, e2h_eq]
  unfold rx ry rz
  simp only [cos_hourAngle, sin_hourAngle]
  rw [show lst + d - (ra + d) = lst - ra by ring]

/-- **C30** With fixed horizontal coordinates the right ascension advances with sidereal time; the declination stays. -/
theorem C30_rotation_h2e (az alt lat lst d : ℝ) :
    horizontalToEquatorial az alt lat (lst + d)
      = ⟨Helper.fMod ((horizontalToEquatorial az alt lat lst).ra + d) 360, (horizontalToEquatorial az alt lat lst).dec⟩ := by
  rw [h2e_eq, h2e_eq]
  simp only
  congr 1
  set D := deg (lonOf (rx (rad lat) (rad az) (rad alt)) (ry (rad az) (rad alt)))
  obtain ⟨_, _, k, hk⟩ := Helper.C23_fmod_range (lst - D) (360 : ℝ) (by norm_num)
  rw [show lst + d - D = (Helper.fMod (lst - D) 360 + d) + k * 360 by linarith]
  exact Helper.C23_fmod_periodic _ _ (by norm_num) _

/-- A concrete case: the north pole of the sky stands due north, at the altitude of the latitude. -/
example (ra lst : ℝ) : SameDirection 0 48 ra 90 48 lst := by
  have h1 : cosd 90 = 0 := by unfold cosd; rw [show (90 : ℝ) * π / 180 = π / 2 by ring, Real.cos_pi_div_two]
  have h2 : sind 90 = 1 := by unfold sind; rw [show (90 : ℝ) * π / 180 = π / 2 by ring, Real.sin_pi_div_two]
  have h3 : cosd 0 = 1 := by unfold cosd; simp
  have h4 : sind 0 = 0 := by unfold sind; simp
  refine ⟨?_, ?_, ?_⟩ <;> simp [h1, h2, h3, h4]

end Verif.Coord
