import Verif.Model.NexStar

/-!
# The GNSS object shared by the two tasks

`loop()` parses the sentences of the receiver (`main.cpp:565` `gnss.fromBuffer`) and is the only writer of the `GNSS` object;
`NexStar::handleRequest` reads it in the task of the Bluetooth stack (`main.cpp:201-209`), without a lock.  `Model/Gnss.lean` treats a
sentence as one step.  Here a sentence is the sequence of its assignments to members, and every read of the other task happens at a moment
of its own, i.e. after some number of these assignments.

Simplifications: an access to an `int`, `float` or `bool` is atomic and memory is sequentially consistent (formally the C++ standard leaves every such
race undefined); what the parser reads back from the object (`tm_hour`, `tm_min`, `tm_mday`, `tm_mon`, `north`, `east`, `valid`) is what it has
just stored, since nobody else writes.
-/

namespace Verif.SharedGnss

open Verif.Nmea Verif.NexStar

/-- An assignment to a member of `GNSS` (`gnss.h:30-43`). -/
inductive Put where
  | hour (z : ℤ)
  | min (z : ℤ)
  | sec (z : ℤ)
  | mday (z : ℤ)
  | mon (z : ℤ)
  | year (z : ℤ)
  | valid (b : Bool)
  | satUsed (n : UInt32)
  | satView (n : UInt32)
  | dilution (q : ℚ)
  | latitude (q : ℚ)
  | longitude (q : ℚ)
  | north (b : Bool)
  | east (b : Bool)
  | speed (q : ℚ)
  | course (q : ℚ)
  | altitude (q : ℚ)
  deriving DecidableEq, Repr

/-- The assignment is made. -/
def Put.apply (g : Gnss) : Put → Gnss
  | .hour z => { g with utc := { g.utc with hour := z } }
  | .min z => { g with utc := { g.utc with min := z } }
  | .sec z => { g with utc := { g.utc with sec := z } }
  | .mday z => { g with utc := { g.utc with mday := z } }
  | .mon z => { g with utc := { g.utc with mon := z } }
  | .year z => { g with utc := { g.utc with year := z } }
  | .valid b => { g with valid := b }
  | .satUsed n => { g with satUsed := n }
  | .satView n => { g with satView := n }
  | .dilution q => { g with dilution := q }
  | .latitude q => { g with latitude := q }
  | .longitude q => { g with longitude := q }
  | .north b => { g with north := b }
  | .east b => { g with east := b }
  | .speed q => { g with speed := q }
  | .course q => { g with course := q }
  | .altitude q => { g with altitude := q }

/-- The object after the first `n` assignments. -/
def after (g : Gnss) (ps : List Put) (n : Nat) : Gnss := (ps.take n).foldl Put.apply g

/-- `if (valid) angle = …` (`gnss.cpp:39-42,48-51,109-113`). -/
def anglePut (valid positive : Bool) (raw : ℚ) (put : ℚ → Put) : C (List Put) :=
  if valid then (do let d ← toDegrees raw; return [put (signed positive d)]) else .ok []

/-- `gnss.cpp:26-63`: the assignments of `fromRMC`, in the order of the code. -/
def rmcPuts (P : Platform) (ptr : Ptr) : C (List Put) := do
  let (rawTimestamp, ptr) ← strtof P ptr
  let (hour, min, sec) ← splitTime rawTimestamp
  let ptr := ptr.drop 1
  let c ← deref ptr
  let valid := c == 65
  let ptr ← skipChar ptr
  let (rawLat, ptr) ← strtof P ptr
  let ptr := ptr.drop 1
  let c ← deref ptr
  let north := c == 78
  let lat ← anglePut valid north rawLat .latitude
  let ptr ← skipChar ptr
  let (rawLon, ptr) ← strtof P ptr
  let ptr := ptr.drop 1
  let c ← deref ptr
  let east := c == 69
  let lon ← anglePut valid east rawLon .longitude
  let ptr ← skipChar ptr
  let (rawSpeed, ptr) ← strtof P ptr
  let speed ← fl b32 (rawSpeed / knotsPerMps)
  let ptr := ptr.drop 1
  let (course, ptr) ← strtof P ptr
  let ptr := ptr.drop 1
  let (rawDate, _) ← strtol P false ptr
  let (mday, mon, year) ← splitDate P (longToU32 rawDate)
  return [.hour hour, .min min, .sec sec, .valid valid, .north north] ++ lat ++ [.east east] ++ lon ++
    [.speed speed, .course course, .mday mday, .mon mon, .year year]

/-- `gnss.cpp:88-122`: the assignments of `fromGGA`. -/
def ggaPuts (P : Platform) (ptr : Ptr) : C (List Put) := do
  let (rawTimestamp, ptr) ← strtof P ptr
  let (hour, min, sec) ← splitTime rawTimestamp
  let ptr := ptr.drop 1
  let (rawLat, ptr) ← strtof P ptr
  let ptr := ptr.drop 1
  let c ← deref ptr
  let north := c == 78
  let ptr ← skipChar ptr
  let (rawLon, ptr) ← strtof P ptr
  let ptr := ptr.drop 1
  let c ← deref ptr
  let east := c == 69
  let ptr ← skipChar ptr
  let (rawLong, ptr) ← strtol P false ptr
  let valid := decide (longToU32 rawLong > 0)
  let lat ← anglePut valid north rawLat .latitude
  let lon ← anglePut valid east rawLon .longitude
  let ptr := ptr.drop 1
  let (sats, ptr) ← strtol P false ptr
  let ptr := ptr.drop 1
  let (dilution, ptr) ← strtof P ptr
  let ptr := ptr.drop 1
  let (altitude, _) ← strtof P ptr
  return [.hour hour, .min min, .sec sec, .north north, .east east, .valid valid] ++ lat ++ lon ++
    [.satUsed (longToU32 sats), .dilution dilution, .altitude altitude]

/-- `gnss.cpp:140-147`: the assignment of `fromGSV`. -/
def gsvPuts (P : Platform) (ptr : Ptr) : C (List Put) := do
  let (_, ptr) ← strtol P false ptr
  let ptr := ptr.drop 1
  let (_, ptr) ← strtol P false ptr
  let ptr := ptr.drop 1
  let (v, _) ← strtol P false ptr
  return [.satView (longToU32 v)]

/-- `gnss.cpp:13-24,74-85,127-138`: checksum and header before the fields. -/
def sentencePuts (P : Platform) (header : List UInt8) (body : Ptr → C (List Put)) (s : List UInt8) : C (Bool × List Put) := do
  let ok ← verifyChecksum P s
  if ok then
    match findSub header s with
    | none => return (false, [])
    | some pos =>
      let ps ← body ((cStr s).drop (pos + 6 + 1))
      return (true, ps)
  else return (false, [])

/-- `gnss.cpp:173-185` `fromNMEA`. -/
def nmeaPuts (P : Platform) (s : List UInt8) : C (Bool × List Put) :=
  if (findSub RMC_HEADER s).isSome then sentencePuts P RMC_HEADER (rmcPuts P) s
  else if (findSub GGA_HEADER s).isSome then sentencePuts P GGA_HEADER (ggaPuts P) s
  else if (findSub GSV_HEADER s).isSome then sentencePuts P GSV_HEADER (gsvPuts P) s
  else .ok (false, [])

/-- `gnss.cpp:193-205`: the loop of `fromBuffer`; one list of assignments for every piece handed to `fromNMEA`. -/
def bufferLoopPuts (P : Platform) (s : List UInt8) : (fuel : Nat) → (endPos sentences : Nat) → C (Option (Nat × List (List Put)))
  | 0, _, _ => .ok none
  | fuel + 1, endPos, sentences =>
    match findFrom [36] s endPos, findFrom [10] s (endPos + 1) with
    | some a, some b => do
      let (ok, ps) ← nmeaPuts P (substr s a b)
      let r ← bufferLoopPuts P s fuel b (if ok then sentences + 1 else sentences)
      return r.map fun q => (q.1, ps :: q.2)
    | _, _ => .ok (some (sentences, []))

/-- `gnss.cpp:187-208` `GNSS::fromBuffer`: the number of sentences accepted and the assignments, piece by piece. -/
def bufferPuts (P : Platform) (buffer : List UInt8) : C (Option (Nat × List (List Put))) :=
  bufferLoopPuts P buffer (buffer.length + 1) 0 0

/-! ### The other task: `view i` is the object at the moment of the `i`-th read -/

/-- `nexstar.cpp:39-40,43-44`: degrees and minutes; `a`, `b`, `c` are the values of the three reads of the coordinate. -/
def degMinSeen (P : Platform) (a b c : ℚ) : C (UInt8 × UInt8) := do
  let deg ← castU8 P (|(⌊a⌋ : ℚ)|)
  let d ← fl b32 (|b| - |(⌊c⌋ : ℚ)|)
  let m ← fl b32 (d * 60)
  let min ← castU8 P m
  return (deg, min)

/-- `nexstar.cpp:38-46`: the location reply. -/
def locationSeen (P : Platform) (view : Nat → Gnss) : C (List UInt8) := do
  let (d1, m1) ← degMinSeen P (view 0).latitude (view 1).latitude (view 2).latitude
  let (d2, m2) ← degMinSeen P (view 4).longitude (view 5).longitude (view 6).longitude
  return [d1, m1, 0, if (view 3).north then 0 else 1, d2, m2, 0, if (view 7).east then 0 else 1, 35]

/-- `nexstar.cpp:61-69`: the time reply. -/
def timeSeen (view : Nat → Gnss) : List UInt8 :=
  [fmtC (view 0).utc.hour, fmtC (view 1).utc.min, fmtC (view 2).utc.sec, fmtC (view 3).utc.mon, fmtC (view 4).utc.mday,
    fmtC ((view 5).utc.year - 2000), 0, 0, 35]

/-- `nexstar.cpp:51,101`: the argument `utcTimestamp` is copied member by member (in the order of `struct tm`). -/
def utcSeen (view : Nat → Gnss) : Tm :=
  ⟨(view 0).utc.sec, (view 1).utc.min, (view 2).utc.hour, (view 3).utc.mday, (view 4).utc.mon, (view 5).utc.year⟩

/-- `nexstar.cpp:51-52,101-102`: the sidereal time and the latitude a position or a synchronisation works with. -/
def placeSeen {K : Type} [Field K] [LinearOrder K] [FloorRing K] (view : Nat → Gnss) : C (K × ℚ) := do
  let t ← Helper.localSiderealTime (utcSeen view) ((view 6).longitude : K)
  return (t, (view 7).latitude)

end Verif.SharedGnss
