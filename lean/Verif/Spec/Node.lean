import Verif.Spec.Codec
import Verif.Spec.NexStar

/-!
# Specification of the TypeScript server's answers

What the server must write for every chunk of bytes it receives.  Independent of the implementation.
-/

namespace Verif.Spec.Node
open Verif.Spec Verif.Spec.NexStar

/-- A 32-bit pattern read as a two's complement number. -/
def signed32 (n : Nat) : ℤ := if n < 2 ^ 31 then n else (n : ℤ) - 2 ^ 32

/-- Letter or digit. -/
def Alnum (b : UInt8) : Prop :=
  (65 ≤ b.toNat ∧ b.toNat ≤ 90) ∨ (97 ≤ b.toNat ∧ b.toNat ≤ 122) ∨ (48 ≤ b.toNat ∧ b.toNat ≤ 57)

/-- Wall clock time: hour, minute, second, month (January is 1), day, year. -/
structure Clock where
  hour : Nat
  minute : Nat
  second : Nat
  month : Nat
  day : Nat
  year : Nat

/-- A clock reading whose fields fit one byte of a NexStar answer each (all days of 2000-2127). -/
def Clock.Valid (c : Clock) : Prop :=
  c.hour < 24 ∧ c.minute < 60 ∧ c.second < 61 ∧ c.month ≤ 12 ∧ c.day ≤ 31 ∧ 2000 ≤ c.year ∧ c.year < 2128

/-- `Exact data c`: the chunk is the request `c` and nothing else.  Only letters and digits are echoed.  A sync is not in
this list: everything that begins with `s` is taken as one. -/
inductive Exact : List UInt8 → Command → Prop
  | echo (x : UInt8) (h : Alnum x) : Exact [75, x] (.echo x)
  | version : Exact [86] .version
  | deviceVersion (d : UInt8) (h : d ∈ [(16 : UInt8), 17, 176, 178]) : Exact [80, 1, d, 254, 0, 0, 0, 2] .deviceVersion
  | model : Exact [109] .model
  | location : Exact [119] .location
  | position : Exact [101] .position
  | time : Exact [104] .time
  | gotoInProgress : Exact [76] .gotoInProgress
  | aligned : Exact [74] .aligned
  | trackingMode : Exact [116] .trackingMode

/-- The replies: the common fixed ones (never aligned), a fixed location (48°15'41" N, 10°59'1" E), the fixed position
`34AB0500,12CE0500`, and the wall clock (time zone 1, no daylight saving). -/
def reply (clock : Clock) : Command → List UInt8
  | .location => [48, 15, 41, 0, 10, 59, 1, 0, 35]
  | .position => "34AB0500,12CE0500#".toList.map fun c => UInt8.ofNat c.toNat
  | .time => [UInt8.ofNat clock.hour, UInt8.ofNat clock.minute, UInt8.ofNat clock.second, UInt8.ofNat clock.month,
      UInt8.ofNat clock.day, UInt8.ofNat (clock.year - 2000), 1, 0, 35]
  | .sync _ _ => [35]
  | c => (fixedReply false c).getD []

/-- `d` is the integer `m` or its neighbour in the direction of zero. -/
def TowardZero (m d : ℤ) : Prop := d = m ∨ d + m.sign = m

/-- `Answers ms clock data out`: the bytes to be written when `data` arrives at the time `ms` (milliseconds). -/
inductive Answers (ms : Nat) (clock : Clock) (data : List UInt8) : List UInt8 → Prop
  /-- a request is answered -/
  | request (c : Command) (h : Exact data c) : Answers ms clock data (reply clock c)
  /-- anything that begins with `s` is acknowledged -/
  | sync (h : data.head? = some 115) : Answers ms clock data [35]
  /-- everything else of 20 or more bytes is a goto: the current position message carries the requested right ascension
  exactly and the requested declination, possibly one unit (`90 / 2^30` degrees) nearer to zero -/
  | goto (h1 : 20 ≤ data.length) (h2 : data.head? ≠ some 115) (dec : Nat) (h3 : dec < 2 ^ 32)
      (h4 : TowardZero (signed32 (leVal (slice data 16 4))) (signed32 dec)) :
      Answers ms clock data (positionMessage (1000 * ms) (leVal (slice data 12 4)) dec)
  /-- everything else is ignored -/
  | ignored (h1 : data.length < 20) (h2 : data.head? ≠ some 115) (h3 : ∀ c, ¬ Exact data c) : Answers ms clock data []

/-- A goto whose declination field is one of the two extreme values -180° and +180° (less one unit). -/
def Extreme (data : List UInt8) : Prop :=
  20 ≤ data.length ∧ data.head? ≠ some 115 ∧
    (signed32 (leVal (slice data 16 4)) = -2 ^ 31 ∨ signed32 (leVal (slice data 16 4)) = 2 ^ 31 - 1)

end Verif.Spec.Node
