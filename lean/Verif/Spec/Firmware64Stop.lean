import Verif.Spec.Firmware64
import Verif.Spec.Safety
import Verif.Props.MainReport
import Verif.Props.Imu32

/-!
# What can stop the firmware when it calculates in IEEE arithmetic
-/

namespace Verif.Firmware64

open Verif Verif.Main Verif.Align Verif.Spec Verif.Spec.NexStar Verif.Telescope64 Verif.Coord64

variable {σ : Type}

/-- What is required of the C library: `atan2` returns an angle (at most 3.15 radians), whatever its arguments. -/
def Angular (W : World σ) : Prop := ∀ x y, |(W.atan2f x y : ℝ)| ≤ 3.15

/-- What is required of the acceleration sensor: components within its range (20 m/s², two times the gravity of the Earth). -/
def InScale : Event ℚ → Prop
  | .loop i => |i.acc.1| ≤ 20 ∧ |i.acc.2.1| ≤ 20 ∧ |i.acc.2.2| ≤ 20
  | _ => True

/-- The telescope as the request of the event finds it: over Bluetooth as it is, over TCP turned to the heading and the pitch the sensors have just reported. -/
inductive Finds (F : Formats) (W : World σ) (s : Sys) : Event ℚ → Tel → Prop
  | bluetooth (b : List UInt8) : Finds F W s (.bluetooth b) s.scope.core
  | tcp (i : In ℚ) (p q : ℚ) : Imu32.measure F.arc W.atan2f s.imu = .ok p →
      headingStep (fl b32) (fl b64) s.heading (frame i.encoder.1 i.encoder.2) = .ok q → Finds F W s (.loop i) (setOrientation s.scope.core ⟨q, p⟩)

/-- The numbers of the report: sidereal time, position, its azimuth and altitude now, the hours of sidereal time, and the matrix in use. -/
structure Numbers where
  lst : ℚ
  kind : TType
  position : ℚ × ℚ
  horizontal : ℚ × ℚ
  hours : ℚ
  matrix : Linalg.Mat3 Linalg64.D

/-- Their calculation, in this order. -/
def numbers (F : Formats) (W : World σ) (g : Nmea.Gnss) (T : Tel) : C Numbers := do
  let lst ← Helper.localSiderealTime64 F.wide g.utc g.longitude
  let p ← getCalibratedOrientation W.libm T g.latitude lst
  let horizontal ← equatorialToHorizontal W.libm p.2.1 p.2.2 g.latitude lst
  let hours ← fl b64 (lst / 15)
  let matrix ← Align64.getTransformationMatrix T.alignment T.orientation
  return ⟨lst, p.1, p.2, horizontal, hours, matrix⟩

/-- The reasons for which the report can fail; `s` is the state after the GNSS receiver was read. -/
inductive ReportCause (F : Formats) (cfg : Config) (W : World σ) (s : Sys) (x : Stop) : Prop
  /-- A number is not finite, or its calculation otherwise not defined. -/
  | numbers : numbers F W s.gnss s.scope.core = .error x → ReportCause F cfg W s x
  /-- A position packet is due, and a coordinate has no 32-bit number. -/
  | packet (lst : ℚ) (p : TType × ℚ × ℚ) : client s ≠ none → s.gnssAvailable = true → s.nexStarMode = false →
      Helper.localSiderealTime64 F.wide s.gnss.utc s.gnss.longitude = .ok lst →
      getCalibratedOrientation W.libm s.scope.core s.gnss.latitude lst = .ok p →
      (Codec.encodeAngle64 cfg.platform p.2.1 = .error x ∨ Codec.encodeAngle64 cfg.platform p.2.2 = .error x) → ReportCause F cfg W s x
  /-- With the local broker: the text in the buffer does not end. -/
  | buffer : cfg.broker = true → s.tx[255]? ≠ some 0 → ReportCause F cfg W s x
  /-- The text of a number, or of the state of the alignment, does not fit into the buffer. -/
  | text (ty : TType) (position horizontal : ℚ × ℚ) (hours : ℚ) (m : String × List UInt8) : m ∈ report s (code ty) position horizontal hours → 255 < m.2.length →
      ReportCause F cfg W s x
  /-- One of the two lists of points does not fit into the buffer (with the local broker: with a NUL). -/
  | points (ps : List (ℚ × ℚ)) : ps = s.scope.core.alignment.used.map (fun v => (v.actual.x, v.actual.y)) ∨
      ps = s.scope.core.alignment.used.map (fun v => (v.reference.x, v.reference.y)) →
      (if cfg.broker then 255 else 256) < (pointList ps).length → ReportCause F cfg W s x
  /-- The text of the matrix does not fit into the buffer, or contains a NUL. -/
  | matrix (m : Linalg.Mat3 Linalg64.D) : Align64.getTransformationMatrix s.scope.core.alignment s.scope.core.orientation = .ok m →
      (253 < (commaList (elements W m)).length ∨ (0 : UInt8) ∈ commaList (elements W m)) → ReportCause F cfg W s x

/-- The reasons for which an event can stop the firmware, and the kind of failure. -/
inductive Cause (F : Formats) (cfg : Config) (W : World σ) (s : Sys) : Event ℚ → Stop → Prop
  /-- Less than eight bytes over Bluetooth that are no command: the Arduino build logs eight bytes. -/
  | short (b : List UInt8) : cfg.platform.arduino = true → b.length < 8 → (∀ c, ¬ Parses b c) → Cause F cfg W s (.bluetooth b) (.ub .oobRead)
  /-- The location is asked for and a coordinate is outside [0, 256). -/
  | location (e : Event ℚ) (r : List UInt8) (x : Stop) : Request s e r → Parses r .location → cfg.platform.fcast = .strict →
      (s.gnss.latitude < 0 ∨ 256 ≤ s.gnss.latitude ∨ s.gnss.longitude < 0 ∨ 256 ≤ s.gnss.longitude) → Cause F cfg W s e x
  /-- The position is asked for and its calculation fails. -/
  | position (e : Event ℚ) (r : List UInt8) (T : Tel) (x : Stop) : Request s e r → Parses r .position → Finds F W s e T →
      Session64.reply F.wide cfg.platform W.libm s.gnss T = .error x → Cause F cfg W s e x
  /-- A NexStar sync fails. -/
  | sync (e : Event ℚ) (r a d : List UInt8) (T : Tel) (x : Stop) : Request s e r → Parses r (.sync a d) → Finds F W s e T →
      Session64.step F.wide cfg.platform W.libm W.env (.request s.gnss r) T = .error x → Cause F cfg W s e x
  /-- A goto fails that tells a position. -/
  | goto (i : In ℚ) (r : List UInt8) (u v : Nat) (T : Tel) (x : Stop) : Request s (.loop i) r → (∀ c, ¬ Parses r c) →
      Session64.Tells (.goto s.gnss r (received i.tcp)) s.gnss u v → Finds F W s (.loop i) T →
      Session64.step F.wide cfg.platform W.libm W.env (.goto s.gnss r (received i.tcp)) T = .error x → Cause F cfg W s (.loop i) x
  /-- The data of the GNSS receiver stop the parser. -/
  | gnss (i : In ℚ) (x : Stop) : taskOf s (.loop i) = some .t500ms → (∀ n g, Nmea.fromBuffer cfg.platform s.gnss (i.serial.take 255) ≠ .ok (some (n, g))) →
      Cause F cfg W s (.loop i) x
  /-- The report of the position and the state of the alignment, every 500 ms. -/
  | report (i : In ℚ) (s1 : Sys) (x : Stop) : taskOf s (.loop i) = some .t500ms → cfg.sensor = true → pollGnss cfg s i.serial = .ok s1 →
      ReportCause F cfg W s1 x → Cause F cfg W s (.loop i) x
  /-- The report of the GNSS data, every 2 s, when they make no sense, or with a text in the buffer that does not end. -/
  | status (i : In ℚ) (x : Stop) : taskOf s (.loop i) = some .t2s → (¬ s.gnss.Sane ∨ cfg.broker = true ∧ s.tx[255]? ≠ some 0) → Cause F cfg W s (.loop i) x

end Verif.Firmware64
