import Verif.C.Basic
import Mathlib.Data.Rat.Defs
import Mathlib.Algebra.Order.Field.Rat

/-!
# Specification: decimal notation

What a reader of the published texts understands.
-/

namespace Verif.Spec.Decimal

/-- A decimal digit. -/
def IsDigit (b : UInt8) : Prop := 48 ≤ b ∧ b ≤ 57

/-- Positional value of a string of digits. -/
def natValue (s : List UInt8) : Nat := s.foldl (fun n b => 10 * n + (b.toNat - 48)) 0

/-- `text` is a fixed-point number with exactly `p` decimals and denotes `v`: an optional `-`, at least one digit, and for `p > 0` a
point and `p` digits. -/
def Denotes (text : List UInt8) (p : Nat) (v : ℚ) : Prop :=
  ∃ (neg : Bool) (a b : List UInt8), a ≠ [] ∧ (∀ c ∈ a, IsDigit c) ∧ b.length = p ∧ (∀ c ∈ b, IsDigit c) ∧
    text = (if neg then [45] else []) ++ a ++ (if p = 0 then [] else 46 :: b) ∧
    v = (if neg then -1 else 1) * (natValue a + (natValue b : ℚ) / 10 ^ p)

end Verif.Spec.Decimal
