import Verif.Spec.Controller
/-
Which calls of SendDMXToAddress reach a node.
-/
namespace Verif.Spec
open Artnet Packet Code

/-- The state after a history. -/
def stateAfter (m : Int) (os : List Op) : Ctrl := ((Ctrl.init m).run os).1

/-- After the history `os` the node `r` can take data for the universe `a`: it claimed the universe when it was added to
the table, or the universe was routed to it at some tick. -/
def Ready (m : Int) (os : List Op) (a : Address) (r : Ref) : Prop :=
  (∃ pre p t post, os = pre ++ .reply p t :: post ∧ Tracked p ∧ r ∉ (stateAfter m pre).nodes ∧
    r ∈ (stateAfter m (pre ++ [.reply p t])).nodes ∧ a ∈ (configFromArtPollReply p).outputs) ∨
  (∃ pre order t post, os = pre ++ .tick order t :: post ∧ Routed (stateAfter m pre) a r)

/-- A call for the universe `a` made after the history `os` reaches the node `r`. -/
def Reaches (m : Int) (os : List Op) (a : Address) (r : Ref) : Prop :=
  Routed (stateAfter m os) a r ∧ Ready m os a r

end Verif.Spec
