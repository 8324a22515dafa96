import Verif.Spec.System
import Verif.Spec.Delaunay
import Verif.Props.MainReport

/-!
# What can stop the firmware

The firmware (`Model/Main.lean`, `Model/System.lean`) has no operating system to catch a fault: a memory error or an undefined conversion
ends every guarantee.  Here are the situations in which that can happen; `Props/Safety.lean` proves that there are no others.
-/

namespace Verif

/-- Data of the receiver that make sense: a date with at most four digits for the year and two for the rest, coordinates of moderate
size. -/
structure Nmea.Gnss.Sane (g : Nmea.Gnss) : Prop where
  lat : |g.latitude| < 10 ^ 37
  lon : |g.longitude| < 10 ^ 37
  alt : |g.altitude| < 10 ^ 39
  year : 0 ≤ g.utc.year ∧ g.utc.year < 10000
  mon : 0 ≤ g.utc.mon ∧ g.utc.mon < 100
  mday : 0 ≤ g.utc.mday ∧ g.utc.mday < 100
  hour : 0 ≤ g.utc.hour ∧ g.utc.hour < 100
  min : 0 ≤ g.utc.min ∧ g.utc.min < 100
  sec : 0 ≤ g.utc.sec ∧ g.utc.sec < 100

namespace Telescope
open Verif.Align

open Classical in
/-- The directions known after a sync in the direction `d`: known directions are not added again, the 64th point discards all. -/
noncomputable def afterSync (pts : List (Pt ℝ)) (d : Pt ℝ) : List (Pt ℝ) :=
  if d ∈ pts then pts else if pts.length = 63 then [] else d :: pts

/-- The directions (heading, pitch) a telescope was synced in. -/
def dirs (T : Tel) : List (Pt ℝ) := T.alignment.used.map VertexPair.actual

/-- A sync of this telescope would make it triangulate directions that are not in general position. -/
def Degenerate (T : Tel) : Prop :=
  2 ≤ (afterSync (dirs T) (toPt T.orientation)).length ∧ ¬ Generic (afterSync (dirs T) (toPt T.orientation))

end Telescope

namespace System
open Verif.Align Verif.Spec.NexStar Verif.Main

/-- An admissible environment: the library's sort sorts, the triangulation's circle test is computed exactly, and its static variables
have been set before. -/
structure Normal (env : Env ℝ (Option (Circle ℝ))) : Prop where
  sort : IsSort env.sort
  test : env.test = exactTest
  init : ∃ o, env.init = some o

/-- The telescope that answers a request: over Bluetooth as it is, over TCP after the sensors were read. -/
def Facing (env : Env ℝ (Option (Circle ℝ))) (s : Sys ℝ Telescope.Tel) : Event ℝ → Telescope.Tel → Prop
  | .bluetooth _, T => T = s.scope.core
  | .loop i, T => ∃ s1, readSensors (real env) s i = .ok s1 ∧ T = s1.scope.core
  | _, _ => False

/-- The number of bytes the firmware believes it received: -1 as `uint32_t` if the read failed. -/
def believed : TcpRead → Nat
  | .failed => 2 ^ 32 - 1
  | .data b => (b.take 256).length

/-- The situations that can stop the firmware. -/
inductive Hazard (cfg : Config) (env : Env ℝ (Option (Circle ℝ))) (s : Sys ℝ Telescope.Tel) : Event ℝ → Prop
  /-- The GNSS receiver sends something the parser stops at, or data that make no sense. -/
  | gnss (i : In ℝ) (ht : taskOf s (.loop i) = some .t500ms) (hd : i.serial ≠ [])
      (h : ∀ n g, Nmea.fromBuffer cfg.platform s.gnss (i.serial.take 255) = .ok (some (n, g)) → ¬ g.Sane) : Hazard cfg env s (.loop i)
  /-- Less than eight bytes over Bluetooth that are no command: the Arduino build logs eight bytes. -/
  | short (b : List UInt8) (ha : cfg.platform.arduino = true) (hl : b.length < 8) (hn : ∀ c, ¬ Parses b c) : Hazard cfg env s (.bluetooth b)
  /-- The location is asked for and a coordinate is outside [0, 256). -/
  | location (e : Event ℝ) (r : List UInt8) (hr : Request s e r) (hp : Parses r .location) (hs : cfg.platform.fcast = .strict)
      (h : s.gnss.latitude < 0 ∨ 256 ≤ s.gnss.latitude ∨ s.gnss.longitude < 0 ∨ 256 ≤ s.gnss.longitude) : Hazard cfg env s e
  /-- The position is asked for and the declination is negative. -/
  | position (e : Event ℝ) (r : List UInt8) (hr : Request s e r) (hp : Parses r .position) (hs : cfg.platform.fcast = .strict)
      (T : Telescope.Tel) (hT : Facing env s e T) (t : ℝ) (ht : Helper.localSiderealTime s.gnss.utc (s.gnss.longitude : ℝ) = .ok t)
      (ty : TType) (p : Equatorial ℝ) (hpos : Telescope.getCalibratedOrientation env T s.gnss.latitude t = .ok (ty, p))
      (h : p.dec ≤ -(360 / 2 ^ 32)) : Hazard cfg env s e
  /-- A NexStar sync, and the directions are not in general position. -/
  | sync (e : Event ℝ) (r : List UInt8) (hr : Request s e r) (a d : List UInt8) (hp : Parses r (.sync a d))
      (T : Telescope.Tel) (hT : Facing env s e T) (h : Telescope.Degenerate T) : Hazard cfg env s e
  /-- A Stellarium goto, and the directions are not in general position. -/
  | goto (i : In ℝ) (r : List UInt8) (hr : Request s (.loop i) r) (hn : ∀ c, ¬ Parses r c) (ha : Codec.Accepts r (believed i.tcp))
      (T : Telescope.Tel) (hT : Facing env s (.loop i) T) (h : Telescope.Degenerate T) : Hazard cfg env s (.loop i)
  /-- A position packet is due, and the position is negative in declination or rounds up to 360 degrees in right ascension. -/
  | packet (i : In ℝ) (ht : taskOf s (.loop i) = some .t500ms) (hsen : cfg.sensor = true) (hs : cfg.platform.fcast = .strict)
      (hc : client s ≠ none) (s1 : Sys ℝ Telescope.Tel) (hp : pollGnss cfg s i.serial = .ok s1) (hav : s1.gnssAvailable = true)
      (hm : s.nexStarMode = false) (t : ℝ) (hl : Helper.localSiderealTime s1.gnss.utc (s1.gnss.longitude : ℝ) = .ok t)
      (ty : TType) (p : Equatorial ℝ) (hpos : Telescope.getCalibratedOrientation env s.scope.core s1.gnss.latitude t = .ok (ty, p))
      (h : ¬ (Codec.InDomain p.ra ∧ Codec.InDomain p.dec)) : Hazard cfg env s (.loop i)
  /-- A report is due, and one of the two lists of points does not fit into the buffer (with the local broker: with a NUL). -/
  | points (i : In ℝ) (ht : taskOf s (.loop i) = some .t500ms) (hsen : cfg.sensor = true) (ps : List (ℝ × ℝ))
      (hps : ps = s.scope.core.alignment.used.map (fun v => (v.actual.x, v.actual.y)) ∨
        ps = s.scope.core.alignment.used.map (fun v => (v.reference.x, v.reference.y)))
      (h : (if cfg.broker then 255 else 256) < (pointList ps).length) : Hazard cfg env s (.loop i)
  /-- A report is due, and the text of the matrix does not fit into the buffer. -/
  | matrix (i : In ℝ) (ht : taskOf s (.loop i) = some .t500ms) (hsen : cfg.sensor = true) (M : Linalg.Mat3 ℝ)
      (hM : getTransformationMatrix env s.scope.core.alignment (Telescope.toPt s.scope.core.orientation) = .ok M)
      (h : 253 < (commaList ((rows M).map (Printf.fmtF 2))).length) : Hazard cfg env s (.loop i)
  /-- The thermometer reports a number with more than 200 digits. -/
  | temperature (i : In ℝ) (ht : taskOf s (.loop i) = some .t2s) (h : 10 ^ 200 ≤ |i.temperature|) : Hazard cfg env s (.loop i)

end System
end Verif
