import Verif.Model.Firmware64
import Verif.Spec.Main
import Verif.Spec.Session64
import Verif.Props.MainProtocol

/-!
# Specification of the firmware as a whole: what a history teaches the telescope, and what is seen of it
-/

namespace Verif.Firmware64

open Verif Verif.Main Verif.Align Verif.Spec Verif.Spec.NexStar Verif.Telescope64 Verif.Coord64
open Verif.Session64 (Ev Seen Known SiderealAt Tells IsSync SameSky wire)

variable {σ : Type}

/-- The number of bytes a read reports; a failed read reports -1, which becomes an unsigned number. -/
def received : TcpRead → Nat
  | .failed => 2 ^ 32 - 1
  | .data b => (b.take 256).length

/-- What the protocol data of an event teach, with the time and place known at that moment: a NexStar sync request (Bluetooth or TCP); or, over TCP, a goto
message that is no NexStar command; or nothing. -/
inductive Taught (s : Sys) : Event ℚ → List Ev → Prop
  | sync (e : Event ℚ) (r a d : List UInt8) : Request s e r → Parses r (.sync a d) → Taught s e [.request s.gnss r]
  | goto (i : In ℚ) (r : List UInt8) (u v : Nat) : Request s (.loop i) r → (∀ c, ¬ Parses r c) →
      Tells (.goto s.gnss r (received i.tcp)) s.gnss u v → Taught s (.loop i) [.goto s.gnss r (received i.tcp)]
  | nothing (e : Event ℚ) : (∀ r a d, Request s e r → ¬ Parses r (.sync a d)) →
      (∀ i r u v, e = .loop i → Request s e r → (∀ c, ¬ Parses r c) → ¬ Tells (.goto s.gnss r (received i.tcp)) s.gnss u v) → Taught s e []

open Classical in
/-- The reset messages of an MQTT client. -/
noncomputable def resets (cfg : Config) (messages : List (List UInt8 × List UInt8)) : List Ev :=
  if cfg.mqtt then (messages.filter fun m => decide (Main.IsReset m.1 m.2)).map fun _ => .clear else []

/-- What an event means for the telescope; `s'` is the state afterwards.  The task that runs every 100 ms turns it to the orientation the sensors report
(published as heading and pitch), handles the data of the TCP client, then the MQTT messages. -/
inductive Means (cfg : Config) (s s' : Sys) : Event ℚ → List Ev → Prop
  | sensors (i : In ℚ) (l : List Ev) : taskOf s (.loop i) = some .t100ms → Taught s (.loop i) l →
      Means cfg s s' (.loop i) (.turn ⟨s'.heading, s'.pitch⟩ :: (l ++ resets cfg i.messages))
  | other (e : Event ℚ) (l : List Ev) : taskOf s e ≠ some .t100ms → Taught s e l → Means cfg s s' e l

/-- What a history means for the telescope, with the C library and the environment of each moment. -/
inductive History (F : Formats) (cfg : Config) : Sys → List (World σ × Event ℚ) → List (Libm × Align64.Env σ × Ev) → Prop
  | nil (s : Sys) : History F cfg s [] []
  | cons (s s' : Sys) (W : World σ) (e : Event ℚ) (o : List Out) (l : List Ev) (h : List (World σ × Event ℚ)) (ls : List (Libm × Align64.Env σ × Ev)) :
      step F cfg W s e = .ok (s', o) → Means cfg s s' e l → History F cfg s' h ls →
      History F cfg s ((W, e) :: h) (l.map (fun x => (W.libm, W.env, x)) ++ ls)

/-- What is required of the surroundings: an accurate C library, a `qsort` that sorts, a moderate number behind the matrix that is inverted. -/
def Careful (W : World σ) : Prop := Accurate W.libm ∧ IsSort W.env.sort ∧ ∀ i, |W.env.stray i| ≤ 1

/-- What is required of the events a history means: no pitch above 91 degrees; a valid GNSS fix with every position told. -/
def Reasonable : Ev → Prop
  | .turn o => |o.y| ≤ 91
  | e => Session64.Proper e

/-- What can be seen of a star when the telescope has been turned back to it, at any later time (same latitude): the reply to the NexStar request `e` over
Bluetooth and over TCP, and the packet sent to a planetarium program, carry two numbers that stand for the star within `tol`. -/
structure Visible (σ : Type) (F : Formats) (cfg : Config) (s : Sys) (tol : ℝ) (star : Seen) : Prop where
  /-- The only other possibility: conversions of numbers out of range are undefined on the platform, and one occurs. -/
  bluetooth : ∀ (W : World σ) (rest : List UInt8) (θ θ' : ℚ), Accurate W.libm → s.scope.core.orientation = star.at' →
    SiderealAt star.fix θ → SiderealAt s.gnss θ' → s.gnss.latitude = star.fix.latitude →
    (∃ u v s', u < 2 ^ 32 ∧ v < 2 ^ 32 ∧
      step F cfg W s (.bluetooth (101 :: rest)) = .ok (s', [.bluetooth (hex8 u ++ [44] ++ hex8 v ++ [35])]) ∧ SameSky tol star θ (wire u) (wire v) θ') ∨
    (cfg.platform.fcast = .strict ∧ step F cfg W s (.bluetooth (101 :: rest)) = .error (.ub .floatToInt))
  tcp : ∀ (W : World σ) (i : In ℚ) (s' : Sys) (o : List Out) (c : Net.Conn) (b : List UInt8) (θ θ' : ℚ), Accurate W.libm →
    taskOf s (.loop i) = some .t100ms → step F cfg W s (.loop i) = .ok (s', o) → Parses (afterRead s.rx i.tcp) .position → .tcp c b ∈ o →
    (⟨s'.heading, s'.pitch⟩ : Pt ℚ) = star.at' → SiderealAt star.fix θ → SiderealAt s.gnss θ' → s.gnss.latitude = star.fix.latitude →
    ∃ u v, u < 2 ^ 32 ∧ v < 2 ^ 32 ∧ b = hex8 u ++ [44] ++ hex8 v ++ [35] ∧ SameSky tol star θ (wire u) (wire v) θ'
  packet : ∀ (W : World σ) (i : In ℚ) (s' : Sys) (o : List Out) (c : Net.Conn) (b : List UInt8) (θ θ' : ℚ), Accurate W.libm →
    taskOf s (.loop i) = some .t500ms → step F cfg W s (.loop i) = .ok (s', o) → .tcp c b ∈ o → s.scope.core.orientation = star.at' →
    SiderealAt star.fix θ → SiderealAt s'.gnss θ' → s'.gnss.latitude = star.fix.latitude →
    ∃ u v, u < 2 ^ 32 ∧ v < 2 ^ 32 ∧ b = positionMessage 0 u v ∧ SameSky tol star θ (wire u) (wire v) θ'
  /-- Every request `e` of a connected TCP client is answered once, to that client. -/
  answered : ∀ (W : World σ) (i : In ℚ) (s' : Sys) (o : List Out) (c : Net.Conn), taskOf s (.loop i) = some .t100ms →
    step F cfg W s (.loop i) = .ok (s', o) → s.net.remote = some c → c ∈ s.net.open' → i.tcp ≠ .data [] → Parses (afterRead s.rx i.tcp) .position →
    ∃ b, ∀ c' b', .tcp c' b' ∈ o ↔ c' = c ∧ b' = b
  /-- With a GNSS fix a connected planetarium program is sent one packet in every run of the 500 ms task. -/
  sent : ∀ (W : World σ) (i : In ℚ) (s' : Sys) (o : List Out) (c : Net.Conn), cfg.sensor = true → taskOf s (.loop i) = some .t500ms →
    step F cfg W s (.loop i) = .ok (s', o) → s.net.remote = some c → c ∈ s.net.open' → s.nexStarMode = false → s'.gnssAvailable = true →
    ∃ b, ∀ c' b', .tcp c' b' ∈ o ↔ c' = c ∧ b' = b

end Verif.Firmware64
