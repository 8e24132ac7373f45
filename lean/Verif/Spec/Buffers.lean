import Verif.Spec.Controller
/-
The universes that a node claimed at some time.
-/
namespace Verif.Spec
open Packet Code Artnet

/-- The node at `ip` claimed universe `a` in one of the replies. -/
def Claimed (os : List Op) (ip : Bytes) (a : Address) : Prop :=
  ∃ p t, .reply p t ∈ os ∧ Tracked p ∧ p.ipAddress.val = ip ∧ a ∈ (configFromArtPollReply p).outputs

end Verif.Spec
