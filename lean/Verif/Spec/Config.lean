import Verif.Model.Config
import Verif.Spec.Registers
/-
Specification vocabulary for configurations: validity, the announce/discover relation, advertised
ports.
-/
namespace Verif.Spec
open Packet Code Artnet

/-- A configuration that can be announced: at most four inputs and four outputs, and equal protocols
where an input and an output share an index. -/
def ValidConfig (c : NodeConfig) : Prop :=
  c.inputPorts.length ≤ 4 ∧ c.outputPorts.length ≤ 4 ∧
  ∀ (i : Nat) (a : InputPort) (b : OutputPort), c.inputPorts[i]? = some a → c.outputPorts[i]? = some b →
    PortType.type a.type = PortType.type b.type

/-- A controller that receives the datagram announcing configuration `c` reconstructs `d`. -/
def Discovers (c d : NodeConfig) : Prop :=
  ∃ p q, artPollReplyFromConfig c = .ok p ∧
    unmarshal (p.marshalBinary).2.1 = .ok (some (.pollReply q), none) ∧
    d = configFromArtPollReply q

/-- Text that survives a zero-padded ASCII field of `n` bytes. -/
def FieldText (n : Nat) (s : Bytes) : Prop := s.length ≤ n ∧ ∀ x ∈ s, x ≠ 0 ∧ x < 0x80

instance (n : Nat) (s : Bytes) : Decidable (FieldText n s) := by unfold FieldText; infer_instance

/-- The UTF-8 encoding of the character whose code point is the byte. -/
def latin1Utf8 (x : UInt8) : Bytes := String.utf8EncodeChar (Char.ofNat x.toNat)

/-- The indices below `min(NumPorts, 4)` whose port type has bit `k` set, ascending. -/
def advertised (p : ArtPollReply) (k : Nat) : List (Fin 4) :=
  (List.finRange 4).filter fun i => decide (i.val < p.numPorts.toNat) && bitOf (p.portTypes.get i) k

end Verif.Spec
