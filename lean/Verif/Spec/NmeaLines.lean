import Verif.Model.Gnss
import Verif.Spec.Nmea

/-!
# Specification: processing a sequence of sentences
-/

namespace Verif.Spec
open Verif Verif.Nmea

/-- Feed sentences one after the other to `fromNMEA`: number accepted and final state. -/
def runLines (P : Platform) (g : Gnss) : List (List UInt8) → C (Nat × Gnss)
  | [] => .ok (0, g)
  | l :: ls => do
    let (ok, g1) ← fromNMEA P g l
    let (n, g2) ← runLines P g1 ls
    return ((if ok then 1 else 0) + n, g2)

/-- A hexadecimal digit character, upper or lower case. -/
def hexChar (lower : Bool) (d : Fin 16) : UInt8 :=
  if d.val < 10 then UInt8.ofNat (48 + d.val) else UInt8.ofNat ((if lower then 87 else 55) + d.val)

/-- Positional value of hexadecimal digits. -/
def hexVal : List (Fin 16) → Nat
  | [] => 0
  | d :: ds => d.val * 16 ^ ds.length + hexVal ds

end Verif.Spec
