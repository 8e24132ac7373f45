import Verif.Spec.Accept
/-
The packets that are documented to carry as many data bytes as their field Length says (ArtDMX has its own rules, C03).
-/
namespace Verif.Spec
open Packet

/-- ArtDiagData, ArtCommand and ArtNzs: the opcode and the offset of Length. The data follow. -/
def variableSized : List (UInt16 × Nat) := [(0x2300, 16), (0x2400, 14), (0x5100, 16)]

/-- An ArtCommand for all manufacturers (the others are refused, C17); any other packet. -/
def ForAll (b : Bytes) : Prop := opOf b = 0x2400 → (byteAt b 12, byteAt b 13) = (0xff, 0xff)

instance (b : Bytes) : Decidable (ForAll b) := by unfold ForAll; infer_instance

/-- Length and the data of a packet. -/
def lengthAndData : AnyPacket → Option (UInt16 × Arr 512)
  | .diagData p => some (p.length, p.data)
  | .command p => some (p.length, p.data)
  | .nzs p => some (p.length, p.data)
  | _ => none

end Verif.Spec
