import Verif.Spec.Controller
/-
Histories of a controller that are the same as far as one universe is concerned, or but for the order in which ticks go through the
map.
-/
namespace Verif.Spec
open Artnet Packet

/-- What a datagram carries besides its sequence number: the node object it is made from, its destination, universe and channels. -/
def content (e : Emission) : Ref × UDPAddr × Address × Bytes := (e.ref, e.address, emAddress e, emChannels e)

/-- What is sent for universe `a`, in order, without the sequence numbers. -/
def streamOf (a : Address) (es : List Emission) : List (Ref × UDPAddr × Address × Bytes) :=
  (es.filter fun e => emAddress e == a).map content

/-- The histories differ only in calls of SendDMXToAddress for other universes than `a` and in the order in which ticks go
through the map. -/
inductive SameFor (a : Address) : List Op → List Op → Prop
  | nil : SameFor a [] []
  | left (d : Arr 512) {b : Address} {os os' : List Op} : b ≠ a → SameFor a os os' → SameFor a (.send d b :: os) os'
  | right (d : Arr 512) {b : Address} {os os' : List Op} : b ≠ a → SameFor a os os' → SameFor a os (.send d b :: os')
  | tick (order order' : List Address) (now : Int) {os os' : List Op} : SameFor a os os' →
      SameFor a (.tick order now :: os) (.tick order' now :: os')
  | cons (o : Op) {os os' : List Op} : SameFor a os os' → SameFor a (o :: os) (o :: os')

/-- The history without the calls of SendDMXToAddress for other universes than `a`. -/
def without (a : Address) : List Op → List Op
  | [] => []
  | .send d b :: os => if b = a then .send d b :: without a os else without a os
  | o :: os => o :: without a os

/-- The operation without the order. -/
def orderless : Op → Op
  | .tick _ now => .tick [] now
  | o => o

/-- Two controllers with the same tables, nodes, buffers and sequence numbers. Buffers are compared as Go maps are: key by key. -/
structure SameState (c d : Ctrl) : Prop where
  nodes : d.nodes = c.nodes
  output : d.output = c.output
  input : d.input = c.input
  lastSeen : ∀ r, (d.heap r).lastSeen = (c.heap r).lastSeen
  node : ∀ r, (d.heap r).node = (c.heap r).node
  udpAddress : ∀ r, (d.heap r).udpAddress = (c.heap r).udpAddress
  sequence : ∀ r, (d.heap r).sequence = (c.heap r).sequence
  buffer : ∀ r a, (d.heap r).dmxBuffer.get a = (c.heap r).dmxBuffer.get a

end Verif.Spec

namespace Verif.Spec
open Artnet Packet

/-- What is sent for universe `a`, in order: destinations and channels. -/
def flowOf (a : Address) (es : List Emission) : List (UDPAddr × Bytes) :=
  (es.filter fun e => emAddress e == a).map fun e => (e.address, emChannels e)

/-- The announcement does not claim universe `a`. -/
def Abstains (a : Address) (p : ArtPollReply) : Prop := a ∉ (configFromArtPollReply p).outputs

/-- The histories differ only in announcements of the hosts `X`, which never claim universe `a`, in calls of SendDMXToAddress for other
universes than `a` and in the order in which ticks go through the map. Every gc pass reads one time. -/
inductive SameBut (X : Bytes → Prop) (a : Address) : List Op → List Op → Prop
  | nil : SameBut X a [] []
  | sendL (d : Arr 512) {b : Address} {os os' : List Op} : b ≠ a → SameBut X a os os' → SameBut X a (.send d b :: os) os'
  | sendR (d : Arr 512) {b : Address} {os os' : List Op} : b ≠ a → SameBut X a os os' → SameBut X a os (.send d b :: os')
  | replyL (p : ArtPollReply) (t : Int) {os os' : List Op} : X p.ipAddress.val → Abstains a p → SameBut X a os os' →
      SameBut X a (.reply p t :: os) os'
  | replyR (p : ArtPollReply) (t : Int) {os os' : List Op} : X p.ipAddress.val → Abstains a p → SameBut X a os os' →
      SameBut X a os (.reply p t :: os')
  | reply (p : ArtPollReply) (t : Int) {os os' : List Op} : ¬ X p.ipAddress.val → SameBut X a os os' →
      SameBut X a (.reply p t :: os) (.reply p t :: os')
  | send (d : Arr 512) {os os' : List Op} : SameBut X a os os' → SameBut X a (.send d a :: os) (.send d a :: os')
  | gc (t : Int) {os os' : List Op} : SameBut X a os os' → SameBut X a (.gc (fun _ => t) :: os) (.gc (fun _ => t) :: os')
  | tick (order order' : List Address) (now : Int) {os os' : List Op} : SameBut X a os os' →
      SameBut X a (.tick order now :: os) (.tick order' now :: os')
  | restart {os os' : List Op} : SameBut X a os os' → SameBut X a (.restart :: os) (.restart :: os')

end Verif.Spec
