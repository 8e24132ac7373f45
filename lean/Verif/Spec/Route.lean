import Verif.Spec.Controller
/-
The events that concern the route of a universe.
-/
namespace Verif.Spec
open Artnet Packet

/-- The operation concerns the universe `a`: the node with the address in a tracked reply claims `a` before or after the
reply, a node that claims `a` is removed, or the controller is restarted. -/
def Concerns (c : Ctrl) (a : Address) : Op → Prop
  | .reply p _ => Tracked p ∧ (a ∈ (configFromArtPollReply p).outputs ∨
      ∃ r ∈ c.nodes, ipOf c r = p.ipAddress.val ∧ a ∈ (c.heap r).node.outputs)
  | .gc clock => ∃ r ∈ c.nodes, r ∉ (c.gcNode clock).nodes ∧ a ∈ (c.heap r).node.outputs
  | .restart => True
  | _ => False

/-- None of the operations, done one after the other from `c`, concerns `a`. -/
def Unconcerned (c : Ctrl) (a : Address) : List Op → Prop
  | [] => True
  | o :: os => ¬ Concerns c a o ∧ Unconcerned (c.step o).1 a os

end Verif.Spec
