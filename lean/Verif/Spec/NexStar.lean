import Verif.Spec.Nmea
import Verif.Spec.NmeaLines

/-!
# Specification of the NexStar hand-controller protocol subset

Which byte strings are requests, and what the fixed replies are.  Independent of the implementation.
-/

namespace Verif.Spec.NexStar
open Verif.Spec

/-- The supported requests. -/
inductive Command where
  | echo (x : UInt8)
  | version
  | deviceVersion
  | model
  | location
  | position
  | time
  | gotoInProgress
  | aligned
  | trackingMode
  | sync (ra dec : List UInt8)
  deriving DecidableEq, Repr

/-- `Parses bytes c`: the byte string is a request for command `c` (trailing bytes are ignored). -/
inductive Parses : List UInt8 → Command → Prop
  /-- `K` x -/
  | echo (x : UInt8) (rest : List UInt8) : Parses (75 :: x :: rest) (.echo x)
  /-- `V` -/
  | version (rest : List UInt8) : Parses (86 :: rest) .version
  /-- `P` 1 device 254 0 0 0 2, for the devices 16, 17 (motors), 176 (GPS), 178 (RTC) -/
  | deviceVersion (d : UInt8) (h : d ∈ [(16 : UInt8), 17, 176, 178]) (rest : List UInt8) :
      Parses (80 :: 1 :: d :: 254 :: 0 :: 0 :: 0 :: 2 :: rest) .deviceVersion
  /-- `m` -/
  | model (rest : List UInt8) : Parses (109 :: rest) .model
  /-- `w` -/
  | location (rest : List UInt8) : Parses (119 :: rest) .location
  /-- `e` -/
  | position (rest : List UInt8) : Parses (101 :: rest) .position
  /-- `h` -/
  | time (rest : List UInt8) : Parses (104 :: rest) .time
  /-- `L` -/
  | gotoInProgress (rest : List UInt8) : Parses (76 :: rest) .gotoInProgress
  /-- `J` -/
  | aligned (rest : List UInt8) : Parses (74 :: rest) .aligned
  /-- `t` -/
  | trackingMode (rest : List UInt8) : Parses (116 :: rest) .trackingMode
  /-- `s`, eight characters, one separator, eight characters -/
  | sync (ra dec : List UInt8) (h1 : ra.length = 8) (h2 : dec.length = 8) (sep : UInt8) (rest : List UInt8) :
      Parses (115 :: (ra ++ sep :: (dec ++ rest))) (.sync ra dec)

/-- Replies that do not depend on position or time: echo, version 4.10, device version 1.0, model 12, no GOTO in
progress, alignment flag, tracking mode 1 (Alt/Az); each ends with `#`. -/
def fixedReply (aligned : Bool) : Command → Option (List UInt8)
  | .echo x => some [x, 35]
  | .version => some [4, 10, 35]
  | .deviceVersion => some [1, 0, 35]
  | .model => some [12, 35]
  | .gotoInProgress => some [0, 35]
  | .aligned => some [if aligned then 1 else 0, 35]
  | .trackingMode => some [1, 35]
  | _ => none

/-- Length of the reply to each command. -/
def replyLength : Command → Nat
  | .echo _ => 2
  | .version => 3
  | .deviceVersion => 3
  | .model => 2
  | .location => 9
  | .position => 18
  | .time => 9
  | .gotoInProgress => 2
  | .aligned => 2
  | .trackingMode => 2
  | .sync _ _ => 1

/-- The C string `out` written at the start of the memory `mem`, the rest left as it was. -/
def written (mem out : List UInt8) : List UInt8 := out ++ 0 :: mem.drop (out.length + 1)

/-- A 32-bit number as eight upper-case hexadecimal digits, most significant first. -/
def hex8 (n : Nat) : List UInt8 :=
  [hexDigit (n / 16 ^ 7 % 16), hexDigit (n / 16 ^ 6 % 16), hexDigit (n / 16 ^ 5 % 16), hexDigit (n / 16 ^ 4 % 16),
   hexDigit (n / 16 ^ 3 % 16), hexDigit (n / 16 ^ 2 % 16), hexDigit (n / 16 % 16), hexDigit (n % 16)]

/-- The text of hexadecimal digits, each in either letter case. -/
def hexText (ds : List (Bool × Fin 16)) : List UInt8 := ds.map fun h => hexChar h.1 h.2

end Verif.Spec.NexStar
