import Verif.Model.SharedGnss

/-!
# What the other task may see of the GNSS object
-/

namespace Verif.SharedGnss

open Verif.Nmea

/-- The object between two pieces of the received data: after the first `j` of them were parsed completely. -/
def settled (g : Gnss) (blocks : List (List Put)) (j : Nat) : Gnss := (blocks.take j).foldl (fun g ps => ps.foldl Put.apply g) g

/-- Every read happens after some number of the assignments; reads may happen in any order (the evaluation order of function arguments is
unspecified). -/
def Sees (g : Gnss) (blocks : List (List Put)) (view : Nat → Gnss) : Prop := ∀ i, ∃ n, view i = after g blocks.flatten n

/-- Every member of `m` has the value it has in `a` or the value it has in `b`. -/
structure Mixed (a b m : Gnss) : Prop where
  hour : m.utc.hour = a.utc.hour ∨ m.utc.hour = b.utc.hour
  min : m.utc.min = a.utc.min ∨ m.utc.min = b.utc.min
  sec : m.utc.sec = a.utc.sec ∨ m.utc.sec = b.utc.sec
  mday : m.utc.mday = a.utc.mday ∨ m.utc.mday = b.utc.mday
  mon : m.utc.mon = a.utc.mon ∨ m.utc.mon = b.utc.mon
  year : m.utc.year = a.utc.year ∨ m.utc.year = b.utc.year
  valid : m.valid = a.valid ∨ m.valid = b.valid
  satUsed : m.satUsed = a.satUsed ∨ m.satUsed = b.satUsed
  satView : m.satView = a.satView ∨ m.satView = b.satView
  dilution : m.dilution = a.dilution ∨ m.dilution = b.dilution
  latitude : m.latitude = a.latitude ∨ m.latitude = b.latitude
  longitude : m.longitude = a.longitude ∨ m.longitude = b.longitude
  north : m.north = a.north ∨ m.north = b.north
  east : m.east = a.east ∨ m.east = b.east
  speed : m.speed = a.speed ∨ m.speed = b.speed
  course : m.course = a.course ∨ m.course = b.course
  altitude : m.altitude = a.altitude ∨ m.altitude = b.altitude

/-- The times differ at most in the seconds. -/
def SameMinute (a b : Tm) : Prop := a.min = b.min ∧ a.hour = b.hour ∧ a.mday = b.mday ∧ a.mon = b.mon ∧ a.year = b.year

/-- The positions are in the same degree of latitude and longitude and the same hemispheres. -/
def SameCell (a b : Gnss) : Prop := ⌊a.latitude⌋ = ⌊b.latitude⌋ ∧ ⌊a.longitude⌋ = ⌊b.longitude⌋ ∧ a.north = b.north ∧ a.east = b.east

end Verif.SharedGnss
