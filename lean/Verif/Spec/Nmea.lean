import Mathlib.Data.Rat.Defs
import Mathlib.Data.Nat.Notation

/-!
# Specification of NMEA-0183 sentences

How a GNSS receiver writes the sentences; independent of the parser.
-/

namespace Verif.Spec

/-- XOR of all bytes. -/
def xorAll (bs : List UInt8) : UInt8 := bs.foldl (· ^^^ ·) 0

/-- One upper-case hexadecimal digit. -/
def hexDigit (n : Nat) : UInt8 := if n < 10 then UInt8.ofNat (48 + n) else UInt8.ofNat (55 + n)

/-- A byte as two upper-case hexadecimal digits. -/
def hexByte (b : UInt8) : List UInt8 := [hexDigit (b.toNat / 16), hexDigit (b.toNat % 16)]

/-- Framing: `$`, payload, `*`, checksum, line end (`\r\n`, nothing, …). -/
def frame (payload ending : List UInt8) : List UInt8 :=
  [36] ++ payload ++ [42] ++ hexByte (xorAll payload) ++ ending

/-- A digit character. -/
def dig (d : Fin 10) : UInt8 := UInt8.ofNat (48 + d.val)

/-- A two-digit decimal field. -/
def dec2 (n : Nat) : List UInt8 := [UInt8.ofNat (48 + n / 10 % 10), UInt8.ofNat (48 + n % 10)]

/-- A three-digit decimal field. -/
def dec3 (n : Nat) : List UInt8 := UInt8.ofNat (48 + n / 100 % 10) :: dec2 n

/-- An optional fraction: nothing, or a point and digits. -/
def fracText : Option (List (Fin 10)) → List UInt8
  | none => []
  | some ds => 46 :: ds.map dig

/-- Value of fraction digits `0.d₁d₂…`. -/
def fracDigits : List (Fin 10) → ℚ
  | [] => 0
  | d :: ds => ((d.val : ℚ) + fracDigits ds) / 10

def fracVal : Option (List (Fin 10)) → ℚ
  | none => 0
  | some ds => fracDigits ds

/-- A non-negative decimal number field: integer digits and optional fraction. -/
structure Dec where
  ip : List (Fin 10)
  fp : Option (List (Fin 10))

/-- Value of a digit string. -/
def natDigits : List (Fin 10) → Nat
  | [] => 0
  | d :: ds => d.val * 10 ^ ds.length + natDigits ds

def Dec.text (d : Dec) : List UInt8 := d.ip.map dig ++ fracText d.fp
def Dec.value (d : Dec) : ℚ := natDigits d.ip + fracVal d.fp

/-- A possibly empty number field (receivers leave unknown values empty). -/
def optText : Option Dec → List UInt8
  | none => []
  | some d => d.text

def optValue : Option Dec → ℚ
  | none => 0
  | some d => d.value

/-- UTC time of day `hhmmss[.f…]`. -/
structure Utc where
  hour : Nat
  min : Nat
  sec : Nat
  frac : Option (List (Fin 10))

def Utc.text (t : Utc) : List UInt8 := dec2 t.hour ++ dec2 t.min ++ dec2 t.sec ++ fracText t.frac
def Utc.Valid (t : Utc) : Prop := t.hour < 24 ∧ t.min < 60 ∧ t.sec < 60

/-- An angle `dd…mm[.f…]`: degrees, minutes, fraction of a minute, and the hemisphere (`true`: N or E). -/
structure Angle where
  deg : Nat
  min : Nat
  frac : Option (List (Fin 10))
  positive : Bool

/-- Latitude field with hemisphere: `ddmm.mmmm,N`. -/
def Angle.latText (a : Angle) : List UInt8 :=
  dec2 a.deg ++ dec2 a.min ++ fracText a.frac ++ [44] ++ [if a.positive then 78 else 83]

/-- Longitude field with hemisphere: `dddmm.mmmm,E`. -/
def Angle.lonText (a : Angle) : List UInt8 :=
  dec3 a.deg ++ dec2 a.min ++ fracText a.frac ++ [44] ++ [if a.positive then 69 else 87]

/-- Unsigned size in degrees. -/
def Angle.size (a : Angle) : ℚ := a.deg + (a.min + fracVal a.frac) / 60

/-- Signed value in degrees. -/
def Angle.value (a : Angle) : ℚ := if a.positive then a.size else -a.size

def Angle.LatValid (a : Angle) : Prop := a.deg < 90 ∧ a.min < 60 ∨ a.deg = 90 ∧ a.min = 0 ∧ fracVal a.frac = 0
def Angle.LonValid (a : Angle) : Prop := a.deg < 180 ∧ a.min < 60 ∨ a.deg = 180 ∧ a.min = 0 ∧ fracVal a.frac = 0

/-- A position as it appears in RMC and GGA: latitude and longitude, or four empty fields. -/
def posText : Option (Angle × Angle) → List UInt8
  | none => [44, 44, 44]
  | some (lat, lon) => lat.latText ++ [44] ++ lon.lonText

/-- Content of an RMC sentence. -/
structure Rmc where
  utc : Utc
  /-- status character, `A` = valid fix -/
  status : UInt8
  pos : Option (Angle × Angle)
  /-- knots -/
  speed : Option Dec
  /-- degrees -/
  course : Option Dec
  day : Nat
  month : Nat
  /-- two-digit year -/
  year : Nat
  /-- magnetic variation and mode fields -/
  tail : List UInt8

/-- `GPRMC,hhmmss.ss,A,ddmm.mm,N,dddmm.mm,E,s.s,c.c,ddmmyy,…` -/
def Rmc.payload (r : Rmc) : List UInt8 :=
  [71, 80, 82, 77, 67] ++ [44] ++ r.utc.text ++ [44] ++ [r.status] ++ [44] ++ posText r.pos ++ [44] ++ optText r.speed ++
    [44] ++ optText r.course ++ [44] ++ (dec2 r.day ++ dec2 r.month ++ dec2 r.year) ++ [44] ++ r.tail

/-- Content of a GGA sentence. -/
structure Gga where
  utc : Utc
  pos : Option (Angle × Angle)
  /-- fix quality, one digit, 0 = no fix -/
  quality : Fin 10
  sats : Nat
  hdop : Option Dec
  /-- metres, sign and size -/
  altNeg : Bool
  alt : Option Dec
  tail : List UInt8

/-- `GPGGA,hhmmss.ss,ddmm.mm,N,dddmm.mm,E,q,nn,h.h,a.a,M,…` -/
def Gga.payload (r : Gga) : List UInt8 :=
  [71, 80, 71, 71, 65] ++ [44] ++ r.utc.text ++ [44] ++ posText r.pos ++ [44] ++ [dig r.quality] ++ [44] ++ dec2 r.sats ++
    [44] ++ optText r.hdop ++ [44] ++ ((if r.altNeg ∧ r.alt.isSome then [45] else []) ++ optText r.alt) ++ [44] ++ r.tail

/-- Content of a GSV sentence: number of messages, message number, satellites in view, and the satellite blocks. -/
structure Gsv where
  total : Fin 10
  index : Fin 10
  inView : Nat
  tail : List UInt8

/-- `GPGSV,n,i,vv,…` -/
def Gsv.payload (r : Gsv) : List UInt8 :=
  [71, 80, 71, 83, 86] ++ [44] ++ [dig r.total] ++ [44] ++ [dig r.index] ++ [44] ++ dec2 r.inView ++ [44] ++ r.tail

/-! ## Well-formed contents -/

/-- Text that may stand inside a payload: 7-bit, neither `$` nor `*`. -/
def PlainText (l : List UInt8) : Prop := ∀ c ∈ l, c < 128 ∧ c ≠ 36 ∧ c ≠ 42

/-- Text that may follow the checksum: empty or not continuing a hexadecimal number, and no `$`. -/
def LineEnd (l : List UInt8) : Prop :=
  36 ∉ l ∧ ∀ c, l.head? = some c → ¬(48 ≤ c ∧ c ≤ 57) ∧ ¬(65 ≤ c ∧ c ≤ 70) ∧ ¬(97 ≤ c ∧ c ≤ 102) ∧ c ≠ 120 ∧ c ≠ 88

/-- A number field with one to nine integer digits. -/
def Dec.WellFormed (d : Dec) : Prop := d.ip ≠ [] ∧ d.ip.length ≤ 9

def posValid : Option (Angle × Angle) → Prop
  | none => True
  | some (lat, lon) => lat.LatValid ∧ lon.LonValid

structure Rmc.WellFormed (r : Rmc) : Prop where
  utc : r.utc.Valid
  status : r.status = 65 ∨ r.status = 86
  pos : posValid r.pos
  /-- a valid fix comes with a position -/
  fix : r.status = 65 → r.pos.isSome = true
  speed : ∀ d, r.speed = some d → d.WellFormed
  course : ∀ d, r.course = some d → d.WellFormed
  day : r.day < 100
  month : r.month < 100
  year : r.year < 100
  tail : PlainText r.tail

structure Gga.WellFormed (r : Gga) : Prop where
  utc : r.utc.Valid
  pos : posValid r.pos
  fix : r.quality ≠ 0 → r.pos.isSome = true
  sats : r.sats < 100
  hdop : ∀ d, r.hdop = some d → d.WellFormed
  alt : ∀ d, r.alt = some d → d.WellFormed
  tail : PlainText r.tail

structure Gsv.WellFormed (r : Gsv) : Prop where
  inView : r.inView < 100
  tail : PlainText r.tail

/-- Signed altitude in metres. -/
def Gga.altitude (r : Gga) : ℚ := if r.altNeg then -optValue r.alt else optValue r.alt

end Verif.Spec
