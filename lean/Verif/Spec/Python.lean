import Verif.Spec.Codec
import Verif.Spec.Node

/-!
# Specification vocabulary for the Python diagnostic server
-/

namespace Verif.Spec.Python
open Verif.Spec

/-- ASCII white space: tab, line feed, vertical tab, form feed, carriage return, space. -/
def White (b : UInt8) : Prop := b ∈ [(9 : UInt8), 10, 11, 12, 13, 32]

/-- The 20-byte "goto" message of the Stellarium telescope protocol. -/
def gotoMessage (timestamp ra dec : Nat) : List UInt8 := le 2 20 ++ le 2 0 ++ le 8 timestamp ++ le 4 ra ++ le 4 dec

/-- A number of `8k` bits in two's complement. -/
def signed (k n : Nat) : ℤ := if n < 256 ^ k / 2 then n else (n : ℤ) - 256 ^ k

end Verif.Spec.Python
