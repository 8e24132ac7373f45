import Verif.Spec.Order
/-
The traffic of a controller.
-/
namespace Verif.Conc
open Packet Code Artnet Spec

/-- The datagram has the opcode of ArtPoll. -/
def isArtPoll (p : Payload) : Bool := byteAt p.data 8 == 0x00 && byteAt p.data 9 == 0x20

/-- The number of universes that a tick of dmxUpdateLoop goes through. -/
def universesOf : Op → Nat
  | .tick order _ => order.length
  | _ => 0

/-- Ticks of dmxUpdateLoop. -/
def isTick : Op → Bool
  | .tick _ _ => true
  | _ => false

end Verif.Conc
