import Verif.Spec.Wire
/-
Which datagrams are Art-Net packets, and what they mean: a specification of the receiving side that
does not mention the decoder.
-/
namespace Verif.Spec
open Packet

/-- 12 bytes, the magic, and (except for ArtPollReply) a protocol version byte of at least 14. -/
def HeaderOK (b : Bytes) : Prop :=
  12 ≤ b.length ∧ b.take 8 = magic ∧ (opOf b = 0x2100 ∨ 14 ≤ byteAt b 11)

instance (b : Bytes) : Decidable (HeaderOK b) := by unfold HeaderOK; infer_instance

/-- `Accepts b p`: datagram `b` is the packet `p`. -/
inductive Accepts : Bytes → AnyPacket → Prop
  | poll (b : Bytes) : HeaderOK b → opOf b = 0x2000 → 14 ≤ b.length → Accepts b (.poll (pollOf b))
  | pollReply (b : Bytes) : HeaderOK b → opOf b = 0x2100 → 239 ≤ b.length →
      ((byteAt b 14, byteAt b 15) = (0x36, 0x19) ∨ (byteAt b 14, byteAt b 15) = (0x19, 0x36)) →
      byteAt b 200 < 7 → Accepts b (.pollReply (pollReplyOf b 6454))
  | diagData (b : Bytes) : HeaderOK b → opOf b = 0x2300 → 530 ≤ b.length →
      Accepts b (.diagData (diagDataOf b))
  | command (b : Bytes) : HeaderOK b → opOf b = 0x2400 → 528 ≤ b.length →
      (byteAt b 12, byteAt b 13) = (0xff, 0xff) → Accepts b (.command (commandOf b))
  | dmx (b : Bytes) : HeaderOK b → opOf b = 0x5000 → 18 + (be16At b 16).toNat ≤ b.length →
      2 ≤ (be16At b 16).toNat → (be16At b 16).toNat ≤ 512 → (be16At b 16).toNat % 2 = 0 →
      Accepts b (.dmx (dmxOf b))
  | nzs (b : Bytes) : HeaderOK b → opOf b = 0x5100 → 530 ≤ b.length → Accepts b (.nzs (nzsOf b))
  | sync (b : Bytes) : HeaderOK b → opOf b = 0x5200 → 14 ≤ b.length → Accepts b (.sync (syncOf b))
  | address (b : Bytes) : HeaderOK b → opOf b = 0x6000 → 107 ≤ b.length →
      Accepts b (.address (addressOf b))
  | timeCode (b : Bytes) : HeaderOK b → opOf b = 0x9700 → 19 ≤ b.length →
      Accepts b (.timeCode (timeCodeOf b))
  | trigger (b : Bytes) : HeaderOK b → opOf b = 0x9900 → 530 ≤ b.length →
      Accepts b (.trigger (triggerOf b))
  | ipProg (b : Bytes) : HeaderOK b → opOf b = 0xf800 → 34 ≤ b.length →
      Accepts b (.ipProg (ipProgOf b))
  | ipProgReply (b : Bytes) : HeaderOK b → opOf b = 0xf900 → 34 ≤ b.length →
      Accepts b (.ipProgReply (ipProgReplyOf b))

end Verif.Spec
