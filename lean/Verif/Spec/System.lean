import Verif.Model.System
import Verif.Spec.Main
import Verif.Spec.Telescope

/-!
# Specification vocabulary for the whole firmware
-/

namespace Verif.System

open Verif.Align

variable {σ : Type}

/-- The firmware since power-up: a history of events, each in its own environment. -/
noncomputable def firmware (cfg : Main.Config) (h : List (Env ℝ σ × Main.Event ℝ)) : C (Main.Sys ℝ Telescope.Tel × List Main.Out) :=
  Main.run cfg (h.map fun x => (real x.1, x.2)) (Main.boot cfg Telescope.new)

/-- The points the firmware publishes on `home/appliance/telescope/actual`: the directions (heading, pitch) of its syncs. -/
def synced (s : Main.Sys ℝ Telescope.Tel) : List (Pt ℝ) := s.scope.core.alignment.used.map VertexPair.actual

/-- Where the telescope points: the heading and pitch the firmware publishes. -/
def pointing (s : Main.Sys ℝ Telescope.Tel) : Pt ℝ := ⟨s.heading, s.pitch⟩

end Verif.System
