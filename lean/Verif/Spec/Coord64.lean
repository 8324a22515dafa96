import Verif.Spec.Coord
import Verif.Model.Coord64

/-!
# What is meant by accuracy
-/

namespace Verif.Spec

open Real

/-- As `SameDirection`, up to `tol` in each component (the components are those of unit vectors; `tol` is the error in radians). -/
structure NearDirection (tol A a α δ φ t : ℝ) : Prop where
  north : |cosd a * cosd A - (sind δ * cosd φ - cosd δ * cosd (t - α) * sind φ)| ≤ tol
  east : |cosd a * sind A + cosd δ * sind (t - α)| ≤ tol
  zenith : |sind a - (sind δ * sind φ + cosd δ * cosd (t - α) * cosd φ)| ≤ tol

/-- `θ` is the angle of the vector `(x, y)`; for negative `x` and `y = 0` it can be `π` or `-π`. -/
def IsAngle (y x θ : ℝ) : Prop := θ = Complex.arg ⟨x, y⟩ ∨ (y = 0 ∧ x < 0 ∧ θ = -π)

/-- A C library that is accurate to one unit in the last place: `2^-52` for numbers up to 1, `2^-51` for angles up to `π`, and relative
accuracy `2^-52` for the square root. -/
structure Accurate (M : Coord64.Libm) : Prop where
  sin : ∀ x : ℚ, |x| ≤ 7 → |(M.sin x : ℝ) - Real.sin x| ≤ 2⁻¹ ^ 52
  cos : ∀ x : ℚ, |x| ≤ 7 → |(M.cos x : ℝ) - Real.cos x| ≤ 2⁻¹ ^ 52
  sqrt : ∀ x : ℚ, 0 ≤ x → |(M.sqrt x : ℝ) - √x| ≤ 2⁻¹ ^ 52 * √x
  atan2 : ∀ y x : ℚ, (x ≠ 0 ∨ y ≠ 0) → ∃ θ : ℝ, IsAngle y x θ ∧ |(M.atan2 y x : ℝ) - θ| ≤ 2⁻¹ ^ 51

end Verif.Spec
