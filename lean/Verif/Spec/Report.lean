import Verif.Spec.Safety
import Verif.Spec.Coord

/-!
# Specification: what a subscriber reads in the report of the 500 ms task
-/

namespace Verif.System
open Verif.Align Verif.Spec Verif.Spec.Decimal Verif.Main

variable {σ : Type}

/-- The messages sent to the MQTT server, with their topics. -/
def mqttOf (o : List Out) : List (String × List UInt8) :=
  o.filterMap fun
    | .mqtt topic payload => some (topic, payload)
    | _ => none

/-- The messages handed to the local broker, with their topics. -/
def brokerOf (o : List Out) : List (String × List UInt8) :=
  o.filterMap fun
    | .broker topic payload => some (topic, payload)
    | _ => none

/-- The twelve messages of one report. -/
def twelve (alt az ra dec lst pitch heading temp counts actual reference matrix : List UInt8) : List (String × List UInt8) :=
  [("home/appliance/telescope/alt", alt), ("home/appliance/telescope/az", az), ("home/appliance/telescope/ra", ra),
   ("home/appliance/telescope/dec", dec), ("home/appliance/telescope/lst", lst), ("home/appliance/telescope/pitch", pitch),
   ("home/appliance/telescope/heading", heading), ("home/appliance/telescope/temp", temp),
   ("home/appliance/telescope/alignment", counts), ("home/appliance/telescope/actual", actual),
   ("home/appliance/telescope/reference", reference), ("home/appliance/telescope/matrix", matrix)]

/-- The number of the alignment type: without triangles 0, 1 or 2 for no, one or more points; with triangles 4 if one of them contains the
direction of the telescope (as far as the test of the firmware can tell, see C45), otherwise 3. -/
def IsType (env : Env ℝ σ) (T : Telescope.Tel) (n : Nat) : Prop :=
  (T.alignment.triangles = [] → n = min T.alignment.used.length 2) ∧
  (T.alignment.triangles ≠ [] → (n = 4 ∧ ∃ j, InIdx env T.alignment ⟨T.orientation.az, T.orientation.alt⟩ j) ∨
    (n = 3 ∧ ∀ j, ¬ InIdx env T.alignment ⟨T.orientation.az, T.orientation.alt⟩ j))

/-- The text with the numbers of points and triangles and the type. -/
def ShowsCounts (points triangles type : Nat) (text : List UInt8) : Prop :=
  ∃ a b c, Denotes a 0 points ∧ Denotes b 0 triangles ∧ Denotes c 0 type ∧
    text = ascii "{\"vertices\":" ++ a ++ ascii ",\"triangles\":" ++ b ++ ascii ", \"type\": " ++ c ++ ascii "}"

/-- The text of a list of points. -/
def ShowsPoints (ps : List (Pt ℝ)) (text : List UInt8) : Prop :=
  ∃ texts, List.Forall₂ ShowsPoint (ps.map fun p => (p.x, p.y)) texts ∧ text = ascii "[" ++ texts.flatten ++ ascii "]"

/-- The text of a matrix: its rows one after the other. -/
def ShowsMatrix (m : Fin 3 → Fin 3 → ℝ) (text : List UInt8) : Prop :=
  ∃ t : Fin 3 → Fin 3 → List UInt8, (∀ i j, Shows 2 (m i j) (t i j)) ∧
    text = ascii "[" ++ t 0 0 ++ ascii ", " ++ t 0 1 ++ ascii ", " ++ t 0 2 ++ ascii ", " ++
      t 1 0 ++ ascii ", " ++ t 1 1 ++ ascii ", " ++ t 1 2 ++ ascii ", " ++
      t 2 0 ++ ascii ", " ++ t 2 1 ++ ascii ", " ++ t 2 2 ++ ascii "]"

end Verif.System
