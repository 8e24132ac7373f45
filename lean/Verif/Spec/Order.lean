import Verif.Spec.Controller
import Verif.Spec.Conc
/-
Definitions for the order in which ArtDMX datagrams are written.
-/
namespace Verif.Artnet
open Spec Packet Code

/-- The channel data `x` is what a universe holds at first (`k = 0`: zeros), or the data of operation number `k`, which is
a call of SendDMXToAddress for the universe `a`. -/
def Source (os : List Op) : Nat → Address → Bytes → Prop
  | 0, _, x => x = List.replicate 512 0
  | k + 1, a, x => ∃ d : Arr 512, os[k]? = some (.send d a) ∧ x = d.val

theorem Source.mono {os os' : List Op} {k : Nat} {a : Address} {x : Bytes} (h : Source os k a x) :
    Source (os ++ os') k a x := by
  cases k with
  | zero => exact h
  | succ k =>
    obtain ⟨d, h1, h2⟩ := h
    exact ⟨d, by rw [List.getElem?_append_left (List.getElem?_eq_some_iff.mp h1).1]; exact h1, h2⟩

theorem Source.le {os : List Op} {k : Nat} {a : Address} {x : Bytes} (h : Source os k a x) : k ≤ os.length := by
  cases k with
  | zero => exact Nat.zero_le _
  | succ k =>
    obtain ⟨d, h1, _⟩ := h
    exact (List.getElem?_eq_some_iff.mp h1).1

end Verif.Artnet

namespace Verif.Conc
open Packet Code Artnet Spec

/-- The opcode of an ArtDMX, low byte first. -/
def isDmx (p : Payload) : Bool := byteAt p.data 8 == 0x00 && byteAt p.data 9 == 0x50

/-- The datagram of an emission. -/
def toPayload (e : Emission) : Payload := ⟨e.address, e.data⟩

end Verif.Conc
