import Verif.Model.Main
import Verif.Spec.NexStar
import Verif.Spec.Codec

/-!
# Specification vocabulary for histories of the firmware
-/

namespace Verif.Main
open Net Spec.NexStar

variable {K : Type} [Field K] [LinearOrder K] [IsStrictOrderedRing K] [FloorRing K] {S : Type}

/-- The task an event runs, if it is a call of `loop()`. -/
def taskOf (s : Sys K S) : Event K → Option Task
  | .loop i => (schedule s.timers i.now).1
  | _ => none

/-- The bytes in front of the first NUL. -/
def upToNul : List UInt8 → List UInt8
  | [] => []
  | b :: l => if b = 0 then [] else b :: upToNul l

/-- Content of the 256-byte receive buffer after a read: new bytes at the front, the rest is from earlier. -/
def afterRead (rx : List UInt8) : TcpRead → List UInt8
  | .failed => rx
  | .data b => b.take 256 ++ rx.drop (b.take 256).length

/-- `Request s e r`: the event `e` in the state `s` hands the bytes `r` to the NexStar protocol handler.  Over Bluetooth these are the
bytes received; over TCP it is the complete receive buffer, whenever the 100 ms task finds a connected client and the read did not
return 0 (a failed read returns -1). -/
inductive Request (s : Sys K S) : Event K → List UInt8 → Prop
  | bluetooth (b : List UInt8) : Request s (.bluetooth b) b
  | tcp (i : In K) (c : Conn) (hrun : taskOf s (.loop i) = some .t100ms) (hc : s.net.remote = some c ∧ c ∈ s.net.open')
      (hr : i.tcp ≠ .data []) : Request s (.loop i) (afterRead s.rx i.tcp)

/-- Something happened in the history: at some point, in the state `s` reached there, the event `e` with property `p`. -/
def Happened (cfg : Config) (s0 : Sys K S) (h : List (Tel K S × Event K)) (p : Sys K S → Event K → Prop) : Prop :=
  ∃ h1 T e h2 s o, h = h1 ++ (T, e) :: h2 ∧ run cfg h1 s0 = .ok (s, o) ∧ p s e

/-- The event is a sync request. -/
def IsSync (s : Sys K S) (e : Event K) : Prop := ∃ r ra dec, Request s e r ∧ Parses r (.sync ra dec)

/-- The event is a NexStar command of any kind. -/
def IsCommand (s : Sys K S) (e : Event K) : Prop := ∃ r c, Request s e r ∧ Parses r c

/-- What a poll of the GNSS receiver (every 500 ms) found: at least one accepted sentence, only other data, nothing. -/
inductive Poll where
  | valid | garbage | empty
  deriving DecidableEq, Repr

/-- `fromBuffer` reported at least one accepted sentence. -/
def classify : C (Option (Nat × Nmea.Gnss)) → Poll
  | .ok (some (n, _)) => if 0 < n then .valid else .garbage
  | _ => .garbage

/-- The poll an event performs, if any. -/
def pollOf (cfg : Config) (s : Sys K S) : Event K → Option Poll
  | .loop i =>
    if (schedule s.timers i.now).1 = some .t500ms then
      if i.serial = [] then some .empty
      else some (classify (Nmea.fromBuffer cfg.platform s.gnss (i.serial.take 255)))
    else none
  | _ => none

/-- The polls of a history. -/
def polls (cfg : Config) : List (Tel K S × Event K) → Sys K S → List Poll
  | [], _ => []
  | (T, e) :: h, s => (pollOf cfg s e).toList ++ match step cfg T s e with
    | .ok (s', _) => polls cfg h s'
    | .error _ => []

/-- There was a valid poll, with at most 19 empty ones after it. -/
def Live (ps : List Poll) : Prop := ∃ a b, ps = a ++ .valid :: b ∧ b.count .empty ≤ 19

/-- The light pattern the user should see (period in ms, lit windows in ms): blinking at 1 Hz without a fix, two flashes every 5 s with
a fix and a client, one flash every 5 s with a fix and without a client. -/
def shown (s : Sys K S) : Nat × List (Nat × Nat) :=
  if s.gnss.valid = false then (1000, [(0, 500)])
  else match s.net.remote with
    | some c => if c ∈ s.net.open' then (5000, [(4550, 4600), (4950, 5000)]) else (5000, [(4990, 5000)])
    | none => (5000, [(4990, 5000)])

end Verif.Main
