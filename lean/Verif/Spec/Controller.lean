import Verif.Model.Controller
import Verif.Spec.Bytes
/-
Specification vocabulary for the controller: reading an emitted datagram, routing, due universes.
-/
namespace Verif.Spec
open Artnet Packet

/-- The Port-Address in an ArtDMX datagram (bytes 14 and 15). -/
def emAddress (e : Emission) : Address := ⟨byteAt e.data 15, byteAt e.data 14⟩

/-- The sequence number in an ArtDMX datagram (byte 12). -/
def emSequence (e : Emission) : UInt8 := byteAt e.data 12

/-- The channel data of an ArtDMX datagram (byte 18 on). -/
def emChannels (e : Emission) : Bytes := e.data.drop 18

/-- The datagram starts like an ArtDMX datagram with 512 channels. -/
def IsDMX (e : Emission) : Prop :=
  e.data.length = 530 ∧
  e.data.take 12 = [0x41, 0x72, 0x74, 0x2d, 0x4e, 0x65, 0x74, 0x00, 0x00, 0x50, 0x00, 0x0e] ∧
  byteAt e.data 16 = 2 ∧ byteAt e.data 17 = 0

/-- The buffer of a universe; a missing buffer counts as an empty one that was never transmitted. -/
def bufferAt (cn : ControlledNode) (a : Address) : DmxBuffer := (cn.dmxBuffer.get a).getD .zero

/-- The universe `a` is routed to the node `r`. -/
def Routed (c : Ctrl) (a : Address) (r : Ref) : Prop := c.output.get a = some r

/-- The IP address of a known node. -/
def ipOf (c : Ctrl) (r : Ref) : Bytes := (c.heap r).node.ip

/-- A reply that pollLoop acts on: style StNode, or StController with at least one output port. -/
def Tracked (p : ArtPollReply) : Prop :=
  (configFromArtPollReply p).type = 0 ∨
  ((configFromArtPollReply p).type = 1 ∧ (configFromArtPollReply p).outputPorts ≠ [])

instance (p : ArtPollReply) : Decidable (Tracked p) := by unfold Tracked; infer_instance

/-- Pending data, older than `maxFPS` nanoseconds, or last transmitted more than 250 ms ago. -/
def Due (b : DmxBuffer) (now maxFPS : Int) : Prop :=
  (b.stale = true ∧ b.lastUpdate < now - maxFPS) ∨ b.lastUpdate < now - 250000000

instance (b : DmxBuffer) (now maxFPS : Int) : Decidable (Due b now maxFPS) := by
  unfold Due; infer_instance

end Verif.Spec

namespace Verif.Spec
open Artnet Packet

/-- The time of the last tracked reply from `ip` in a history, `t` if there is none. -/
def heardFrom (ip : Bytes) (t : Option Int) : List Op → Option Int
  | [] => t
  | .reply p now :: os =>
    heardFrom ip (if Tracked p ∧ p.ipAddress.val = ip then some now else t) os
  | _ :: os => heardFrom ip t os

/-- The time of the last tracked reply from `ip` in a history. -/
def heardAt (ip : Bytes) (os : List Op) : Option Int := heardFrom ip none os

/-- `o` is a tracked reply from `ip`. -/
def RepliesFrom (ip : Bytes) : Op → Prop
  | .reply p _ => Tracked p ∧ p.ipAddress.val = ip
  | _ => False

/-- `o` is a call of SendDMXToAddress for universe `a`. -/
def SendsTo (a : Address) : Op → Prop
  | .send _ x => x = a
  | _ => False

/-- `o` is a tick. -/
def IsTick : Op → Prop
  | .tick _ _ => True
  | _ => False

/-- `o` is a restart. -/
def IsRestart : Op → Prop
  | .restart => True
  | _ => False

/-- A clock that does not run backwards. -/
def Monotone (clock : Nat → Int) : Prop := ∀ i j, i ≤ j → clock i ≤ clock j

/-- No two known nodes claim the same output universe. -/
def CollisionFree (c : Ctrl) : Prop :=
  ∀ r ∈ c.nodes, ∀ s ∈ c.nodes, r ≠ s → ∀ a ∈ (c.heap r).node.outputs, a ∉ (c.heap s).node.outputs

/-- A reply from a node at `ip` with one output port, switch `u`, in net 0. -/
def replyOf (ip : Arr 4) (u : UInt8) : ArtPollReply :=
  { ArtPollReply.new with
    ipAddress := ip
    numPorts := 1
    portTypes := ⟨[0x80, 0, 0, 0], rfl⟩
    swOut := ⟨[u, 0, 0, 0], rfl⟩ }

end Verif.Spec
