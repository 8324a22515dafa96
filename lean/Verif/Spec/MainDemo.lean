import Verif.Spec.Main

/-!
# A toy telescope and a configuration for the executable examples
-/

namespace Verif.Main.Demo

/-- Remembers the reference points and always points to (10, 20). -/
def tel : Tel ℚ (List (Equatorial ℚ)) where
  calibrated _ _ _ := .ok (0, ⟨10, 20⟩)
  addReferencePoint s e _ _ := .ok (e :: s)
  setOrientation s _ _ := s
  clear _ := []
  toHorizontal e _ _ := (e.ra, e.dec)
  pitch a := a.1
  vertices s := s.map fun e => ((e.ra, e.dec), (e.ra, e.dec))
  triangles s := s.length - 2
  matrix _ := .ok [1, 0, 0, 0, 1, 0, 0, 0, 1]

/-- ESP32 with orientation sensor and WiFi, no MQTT. -/
def cfg : Config := ⟨.esp32, true, false, false, true⟩

/-- A call of `loop()`. -/
def at' (now : UInt32) (tcp : TcpRead := .data []) (serial : List UInt8 := []) (messages : List (List UInt8 × List UInt8) := []) :
    Tel ℚ (List (Equatorial ℚ)) × Event ℚ :=
  (tel, .loop ⟨now, (0, 0, 0), (0, 0), tcp, serial, messages, 20⟩)

/-- Events that are not calls of `loop()`. -/
def ev (e : Event ℚ) : Tel ℚ (List (Equatorial ℚ)) × Event ℚ := (tel, e)

/-- A valid RMC sentence. -/
def rmc : List UInt8 := ascii "$GPRMC,092725.00,A,4717.0,N,00833.0,E,0,0,070819,,*32\r\n"

end Verif.Main.Demo
