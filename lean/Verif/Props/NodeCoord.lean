import Verif.Model.NodeCoord
import Verif.Props.Coord

/-!
# C61: the TypeScript server's coordinate conversion against the firmware's
-/

namespace Verif.Node
open Real Verif.Coord

theorem deg_eq (x : ℝ) : deg x = Coord.deg x := by
  unfold deg Coord.deg; ring

/-- The node conversion in the vocabulary of `Lemmas/Coord.lean`. -/
theorem from_eq (az alt lat lst : ℝ) : fromHorizontalPosition az alt lat lst =
    (let ha := Coord.deg (lonOf (rx (Coord.rad lat) (Coord.rad az) (Coord.rad alt)) (ry (Coord.rad az) (Coord.rad alt)))
     (if (lst - ha) / 360 * 24 < 0 then (lst - ha) / 360 * 24 + 24 else (lst - ha) / 360 * 24,
      (horizontalToEquatorial az alt lat lst).dec)) := by
  rw [h2e_eq]
  simp only [← deg_eq]
  rfl

theorem ha_range (x y : ℝ) : -180 < Coord.deg (lonOf x y) ∧ Coord.deg (lonOf x y) ≤ 180 := by
  obtain ⟨h1, h2⟩ := lonOf_range x y
  unfold Coord.deg
  have hp := pi_pos
  rw [lt_div_iff₀ hp, div_le_iff₀ hp]
  constructor <;> nlinarith

/-- **C61**. For a sidereal time of less than half a turn the TypeScript server computes the firmware's position (right
ascension in hours instead of degrees), and it is in range. -/
theorem C61_node_position (az alt lat lst : ℝ) (h0 : 0 ≤ lst) (h1 : lst ≤ 180) :
    (fromHorizontalPosition az alt lat lst).1 * 15 = (horizontalToEquatorial az alt lat lst).ra ∧
    (fromHorizontalPosition az alt lat lst).2 = (horizontalToEquatorial az alt lat lst).dec ∧
    0 ≤ (fromHorizontalPosition az alt lat lst).1 ∧ (fromHorizontalPosition az alt lat lst).1 < 24 ∧
    |(fromHorizontalPosition az alt lat lst).2| ≤ 90 := by
  have hr := C30_ranges az alt lat lst
  rw [from_eq]
  simp only
  have key : (if (lst - Coord.deg (lonOf (rx (Coord.rad lat) (Coord.rad az) (Coord.rad alt)) (ry (Coord.rad az) (Coord.rad alt)))) / 360 * 24 < 0
      then (lst - Coord.deg (lonOf (rx (Coord.rad lat) (Coord.rad az) (Coord.rad alt)) (ry (Coord.rad az) (Coord.rad alt)))) / 360 * 24 + 24
      else (lst - Coord.deg (lonOf (rx (Coord.rad lat) (Coord.rad az) (Coord.rad alt)) (ry (Coord.rad az) (Coord.rad alt)))) / 360 * 24) * 15
        = (horizontalToEquatorial az alt lat lst).ra := by
    rw [h2e_eq]
    simp only
    obtain ⟨a1, a2⟩ := ha_range (rx (Coord.rad lat) (Coord.rad az) (Coord.rad alt)) (ry (Coord.rad az) (Coord.rad alt))
    set ha := Coord.deg (lonOf (rx (Coord.rad lat) (Coord.rad az) (Coord.rad alt)) (ry (Coord.rad az) (Coord.rad alt)))
    split
    · rename_i hneg
      rw [Helper.C23_fmod_unique (lst - ha) 360 (lst - ha + 360) (by norm_num) (by linarith) (by linarith) (-1) (by push_cast; ring)]
      ring
    · rename_i hneg
      rw [Helper.C23_fmod_id (lst - ha) 360 (by linarith) (by linarith)]
      ring
  refine ⟨key, trivial, by linarith, by linarith, ?_⟩
  rw [abs_le]; exact ⟨hr.2.2.1, hr.2.2.2.1⟩

/-- **C61** (any sidereal time of a day). The right ascension is the firmware's, or the firmware's plus 24 hours. -/
theorem C61_node_position_any (az alt lat lst : ℝ) (h0 : 0 ≤ lst) (h1 : lst < 360) :
    (fromHorizontalPosition az alt lat lst).2 = (horizontalToEquatorial az alt lat lst).dec ∧
    ((fromHorizontalPosition az alt lat lst).1 * 15 = (horizontalToEquatorial az alt lat lst).ra ∨
     (fromHorizontalPosition az alt lat lst).1 * 15 = (horizontalToEquatorial az alt lat lst).ra + 360) := by
  rw [from_eq]
  refine ⟨rfl, ?_⟩
  rw [h2e_eq]
  simp only
  obtain ⟨a1, a2⟩ := ha_range (rx (Coord.rad lat) (Coord.rad az) (Coord.rad alt)) (ry (Coord.rad az) (Coord.rad alt))
  set ha := Coord.deg (lonOf (rx (Coord.rad lat) (Coord.rad az) (Coord.rad alt)) (ry (Coord.rad az) (Coord.rad alt)))
  split
  · left
    rename_i hneg
    rw [Helper.C23_fmod_unique (lst - ha) 360 (lst - ha + 360) (by norm_num) (by linarith) (by linarith) (-1) (by push_cast; ring)]
    ring
  · rename_i hneg
    by_cases hlt : lst - ha < 360
    · left
      rw [Helper.C23_fmod_id (lst - ha) 360 (by linarith) hlt]
      ring
    · right
      rw [Helper.C23_fmod_unique (lst - ha) 360 (lst - ha - 360) (by norm_num) (by linarith) (by linarith) 1 (by push_cast; ring)]
      ring

/-- **C61** (the excess of 24 hours is real). Looking east from the equator at sidereal time 270° the server computes 24
hours, which its encoder cannot represent; the firmware computes 0°. -/
theorem C61_node_overflow : (fromHorizontalPosition 90 0 0 270).1 = 24 ∧ (horizontalToEquatorial 90 0 0 270).ra = 0 := by
  have hx : rx (Coord.rad 0) (Coord.rad 90) (Coord.rad 0) = 0 := by simp [rx, Coord.rad]
  have hy : ry (Coord.rad 90) (Coord.rad 0) = -1 := by
    have : (90 : ℝ) * π / 180 = π / 2 := by ring
    simp [ry, Coord.rad, this]
  have hl : Coord.deg (lonOf 0 (-1)) = -90 := by
    unfold lonOf
    rw [if_pos (by norm_num)]
    unfold atan2
    have : (⟨0, -1⟩ : ℂ) = -Complex.I := by apply Complex.ext <;> simp
    rw [this, Complex.arg_neg_I]
    unfold Coord.deg
    field_simp; norm_num
  constructor
  · rw [from_eq]
    simp only [hx, hy, hl]
    norm_num
  · rw [h2e_eq]
    simp only [hx, hy, hl]
    exact Helper.C23_fmod_unique _ 360 0 (by norm_num) le_rfl (by norm_num) 1 (by norm_num)

/-- The hypotheses of `C61_node_position` hold for the call the server makes. -/
example : (0 : ℝ) ≤ 32.166 ∧ (32.166 : ℝ) ≤ 180 := by norm_num

end Verif.Node
