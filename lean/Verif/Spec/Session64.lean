import Verif.Model.Session64
import Verif.Spec.Telescope64
import Verif.Spec.NexStar
import Verif.Props.Codec64
import Verif.Props.Sidereal64

/-!
# Specification of an observing session: what was sent, what was received, which sky it is about
-/

namespace Verif.Session64

open Verif Verif.Align Verif.Linalg64 Verif.Coord64 Verif.Telescope64 Verif.Spec Verif.Spec.NexStar

variable {σ : Type}

/-- What happens during a session: the sensors report an orientation; a message arrives from a planetarium program (the receive buffer and the number of bytes
received) or a NexStar request, while the GNSS receiver has supplied time and place; the alignment is reset. -/
inductive Ev where
  | turn (o : Pt ℚ)
  | goto (g : Nmea.Gnss) (rx : List UInt8) (received : Nat)
  | request (g : Nmea.Gnss) (bytes : List UInt8)
  | clear

/-- What the firmware does with it. -/
def step (L : Fmt) (P : Platform) (M : Libm) (env : Align64.Env σ) : Ev → Tel → C Tel
  | .turn o, T => .ok (setOrientation T o)
  | .goto g rx n, T => goto L M env g T rx n
  | .request g b, T => request L P M env g T b
  | .clear, T => .ok (clear T)

/-- A session. -/
def run (L : Fmt) (P : Platform) : List (Libm × Align64.Env σ × Ev) → Tel → C Tel
  | [], T => .ok T
  | (M, env, e) :: h, T => do
    let T' ← step L P M env e T
    run L P h T'

/-- The mean local sidereal time, in degrees (full turns not removed), at the time and place the GNSS receiver reports: a valid date within 355 years of 2000. -/
def SiderealAt (g : Nmea.Gnss) (θ : ℚ) : Prop :=
  ∃ (n : ℤ) (d : Date), d.Valid ∧ Helper.Tm.IsDate g.utc d ∧ Helper.DaysFrom2000 d n ∧ |n| ≤ 130000 ∧ 1 ≤ d.year ∧ d.year ≤ 6765 ∧
    (0 ≤ g.utc.hour ∧ g.utc.hour ≤ 23 ∧ 0 ≤ g.utc.min ∧ g.utc.min ≤ 59 ∧ 0 ≤ g.utc.sec ∧ g.utc.sec ≤ 60) ∧ |g.longitude| ≤ 360 ∧
    θ = Helper.meanSidereal (Helper.daysSinceJ2000 n g.utc) + g.longitude

/-- A star the telescope was told about: the orientation of the telescope, the position (degrees), time and place. -/
structure Seen where
  at' : Pt ℚ
  ra : ℚ
  dec : ℚ
  fix : Nmea.Gnss

/-- The angle a 32-bit number stands for in both protocols. -/
def wire (n : Nat) : ℚ := n * 360 / 2 ^ 32

/-- A NexStar sync request with the numbers `u` and `v`. -/
def IsSync (b : List UInt8) (u v : Nat) : Prop :=
  ∃ (a d : List (Bool × Fin 16)) (sep : UInt8) (rest : List UInt8), a.length = 8 ∧ d.length = 8 ∧
    b = 115 :: (hexText a ++ sep :: (hexText d ++ rest)) ∧ u = hexVal (a.map (·.2)) ∧ v = hexVal (d.map (·.2))

/-- The message or request tells the position with the numbers `u` and `v`. -/
inductive Tells : Ev → Nmea.Gnss → Nat → Nat → Prop
  /-- a goto message: LENGTH at least 20 and at most the number of bytes received, TYPE 0, little-endian numbers at 12 and 16 -/
  | goto (g : Nmea.Gnss) (rx : List UInt8) (n : Nat) : 20 ≤ leVal (slice rx 0 2) → leVal (slice rx 0 2) ≤ n → leVal (slice rx 2 2) = 0 →
      Tells (.goto g rx n) g (leVal (slice rx 12 4)) (leVal (slice rx 16 4))
  | sync (g : Nmea.Gnss) (b : List UInt8) (u v : Nat) : IsSync b u v → Tells (.request g b) g u v

/-- Orientation of the telescope and the stars it knows. -/
structure Known where
  now : Pt ℚ
  stars : List Seen

/-- What an event changes. -/
inductive Learns : Known → Ev → Known → Prop
  | turn (k : Known) (o : Pt ℚ) : Learns k (.turn o) { k with now := o }
  | clear (k : Known) : Learns k .clear { k with stars := [] }
  /-- neither a position nor a sync -/
  | other (k : Known) (e : Ev) : (∀ o, e ≠ .turn o) → e ≠ .clear → (∀ g u v, ¬ Tells e g u v) → Learns k e k
  /-- a star was synced at exactly this orientation before -/
  | again (k : Known) (e : Ev) (g : Nmea.Gnss) (u v : Nat) : Tells e g u v → k.now ∈ k.stars.map Seen.at' → Learns k e k
  /-- the 64th star discards all -/
  | full (k : Known) (e : Ev) (g : Nmea.Gnss) (u v : Nat) : Tells e g u v → k.now ∉ k.stars.map Seen.at' → k.stars.length = 63 →
      Learns k e { k with stars := [] }
  | star (k : Known) (e : Ev) (g : Nmea.Gnss) (u v : Nat) : Tells e g u v → k.now ∉ k.stars.map Seen.at' → k.stars.length < 63 →
      Learns k e { k with stars := k.stars ++ [⟨k.now, wire u, wire v, g⟩] }

/-- During a session. -/
inductive Story : Known → List Ev → Known → Prop
  | nil (k : Known) : Story k [] k
  | cons {k k' k'' : Known} {e : Ev} {es : List Ev} : Learns k e k' → Story k' es k'' → Story k (e :: es) k''

/-- What is required of an event: sane orientations, a valid GNSS fix, NexStar sync requests with hexadecimal digits, enough bytes in the receive buffer. -/
def Proper : Ev → Prop
  | .turn o => SaneDirection o
  | .goto g rx _ => (∃ θ, SiderealAt g θ) ∧ |g.latitude| ≤ 361 ∧ 20 ≤ rx.length
  | .request g b => (∃ θ, SiderealAt g θ) ∧ |g.latitude| ≤ 361 ∧ ∀ a d, Parses b (.sync a d) → ∃ u v, IsSync b u v
  | .clear => True

/-- ... and of its environment. -/
def Fair (e : Libm × Align64.Env σ × Ev) : Prop := Accurate e.1 ∧ IsSort e.2.1.sort ∧ (∀ i, |e.2.1.stray i| ≤ 1) ∧ Proper e.2.2

/-- The position `ra`, `dec` (degrees), reported when the sidereal time is `θ'`, is that of the star as it was when it was synced, at the sidereal time `θ`:
the unit vectors given by declination and hour angle differ by at most `tol` in each component. -/
def SameSky (tol : ℝ) (s : Seen) (θ : ℚ) (ra dec θ' : ℚ) : Prop :=
  |cosd dec * cosd (θ' - ra) - cosd s.dec * cosd (θ - s.ra)| ≤ tol ∧ |cosd dec * sind (θ' - ra) - cosd s.dec * sind (θ - s.ra)| ≤ tol ∧
    |sind dec - sind s.dec| ≤ tol

/-- With the telescope turned back to where the star was synced, at any later time (same latitude), the position packet and the reply to `e` carry numbers
`u`, `v` that stand for the star.  The only other possibility: conversions of numbers out of range are undefined on the platform (`strict`), and one occurs. -/
def Reports (L : Fmt) (P : Platform) (T : Tel) (tol : ℝ) (s : Seen) : Prop :=
  ∀ (M : Libm) (g' : Nmea.Gnss) (θ θ' : ℚ) (tx : List UInt8), Accurate M → SiderealAt s.fix θ → SiderealAt g' θ' → g'.latitude = s.fix.latitude →
    256 ≤ tx.length →
    ((∃ u v, u < 2 ^ 32 ∧ v < 2 ^ 32 ∧ packet L P M g' (setOrientation T s.at') tx = .ok (positionMessage 0 u v) ∧
        SameSky tol s θ (wire u) (wire v) θ') ∨
      (P.fcast = .strict ∧ packet L P M g' (setOrientation T s.at') tx = .error (.ub .floatToInt))) ∧
    ((∃ u v, u < 2 ^ 32 ∧ v < 2 ^ 32 ∧ reply L P M g' (setOrientation T s.at') = .ok (hex8 u ++ [44] ++ hex8 v ++ [35]) ∧
        SameSky tol s θ (wire u) (wire v) θ') ∨
      (P.fcast = .strict ∧ reply L P M g' (setOrientation T s.at') = .error (.ub .floatToInt)))

end Verif.Session64
