import Verif.Model.Bla
import Mathlib.Data.Matrix.Basic

/-!
# Specification of the matrix library: mathematical matrices
-/

namespace Verif.Bla

variable {K : Type}

/-- Reading the view gives, element by element, the matrix `M`. -/
def Denotes {r c : Nat} (v : View K) (M : Matrix (Fin r) (Fin c) K) : Prop := ∀ (i : Fin r) (j : Fin c), v i j = .ok (M i j)

/-- The array object has exactly the elements of `M`, stored row by row. -/
def Represents {r c : Nat} (a : Arr K) (M : Matrix (Fin r) (Fin c) K) : Prop := a.size = r * c ∧ Denotes (array c a) M

variable [Field K]

/-- Row `i` is zero, and so is the element stored after it (the first one of the next row, or the value behind the array). -/
def ZeroRow {n : Nat} (A : Matrix (Fin n) (Fin n) K) (stray : K) (i : Fin n) : Prop :=
  (∀ j, A i j = 0) ∧ if h : (i : Nat) + 1 < n then A ⟨i + 1, h⟩ ⟨0, by omega⟩ = 0 else stray = 0

/-- A matrix that is `10⁻²⁰` in some places, no two of them in one row or column, and zero elsewhere. -/
structure Tiny {n : Nat} (E : Matrix (Fin n) (Fin n) K) : Prop where
  value : ∀ i j, E i j = 0 ∨ E i j = 1 / 10 ^ 20
  row : ∀ i j j', E i j ≠ 0 → E i j' ≠ 0 → j = j'
  col : ∀ i i' j, E i j ≠ 0 → E i' j ≠ 0 → i = i'

end Verif.Bla
