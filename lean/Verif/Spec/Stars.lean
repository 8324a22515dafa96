import Verif.Spec.Safety
import Verif.Props.MainProtocol

/-!
# Events that can change the set of synced stars
-/

namespace Verif.Main
open Spec.NexStar

variable {K : Type} [Field K] [LinearOrder K] [IsStrictOrderedRing K] [FloorRing K] {S : Type}

/-- Events that can change the set of synced stars: a NexStar sync over Bluetooth or TCP, a Stellarium goto message, a reset over MQTT. -/
inductive ChangesStars (cfg : Config) (s : Sys K S) : Event K → Prop
  | sync (e : Event K) (r a d : List UInt8) (hr : Request s e r) (hp : Parses r (.sync a d)) : ChangesStars cfg s e
  | goto (i : In K) (r : List UInt8) (hr : Request s (.loop i) r) (hn : ∀ c, ¬ Parses r c) (ha : Codec.Accepts r (System.believed i.tcp)) :
      ChangesStars cfg s (.loop i)
  | reset (i : In K) (ht : taskOf s (.loop i) = some .t100ms) (hm : cfg.mqtt = true) (m : List UInt8 × List UInt8) (hi : m ∈ i.messages)
      (hr : IsReset m.1 m.2) : ChangesStars cfg s (.loop i)

end Verif.Main
