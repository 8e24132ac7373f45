import Verif.Model.Example
import Verif.Spec.Kinds
/-
What is expected of the programs under example/.
-/
namespace Verif.Spec
open Artnet Packet Code

/-- The address belongs to 2.0.0.0/8, in its short form or in its sixteen-byte form. -/
def InTwo (a : Bytes) : Prop :=
  (a.length = 4 ∧ a[0]? = some 2) ∨ (a.length = 16 ∧ a.take 12 = v4InV6Prefix ∧ a[12]? = some 2)

instance (a : Bytes) : Decidable (InTwo a) := by unfold InTwo; infer_instance

/-- The source is the address that example/poll is bound to. -/
def Own (src : UDPAddr) : Prop := src.ip = [2, 12, 12, 12] ∨ src.ip = v4InV6Prefix ++ [2, 12, 12, 12]

instance (src : UDPAddr) : Decidable (Own src) := by unfold Own; infer_instance

/-- The datagrams of other hosts, as far as they fit into the buffer. -/
def foreign : List ExAct → List Bytes
  | [] => []
  | .read src d :: as => if Own src then foreign as else d.take 4096 :: foreign as
  | _ :: as => foreign as

/-- What an announcement says; `none` for everything else. -/
def replyConfig (d : Bytes) : Option NodeConfig :=
  match unmarshal d with
  | .ok (some (.pollReply p), none) => some (configFromArtPollReply p)
  | _ => none

/-- The datagram is a packet of another kind. -/
def OtherPacket (d : Bytes) : Prop := ∃ p, unmarshal d = .ok (some p, none) ∧ opcodeFor p ≠ 0x2100

/-- `calm false as`: no datagram is read between a communication and the parse that follows it. -/
def calm : Bool → List ExAct → Bool
  | _, [] => true
  | busy, .read _ _ :: as => !busy && calm busy as
  | _, .hand :: as => calm true as
  | _, .parse :: as => calm false as
  | busy, _ :: as => calm busy as

/-- The first ten bytes of an announcement. -/
def replyHeader : Bytes := [0x41, 0x72, 0x74, 0x2d, 0x4e, 0x65, 0x74, 0x00, 0x00, 0x21]

end Verif.Spec
