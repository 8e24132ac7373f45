import Verif.Spec.Accept
import Verif.Spec.Kinds
/-
What Unmarshal returns for each datagram, from the bytes at absolute offsets.
-/
namespace Verif.Spec
open Packet Code

/-- Opcodes that are declared and have no decoder: ArtTodRequest … ArtFileFnReply. -/
def undecoded : List UInt16 := [0x8000, 0x8100, 0x8200, 0x8300, 0x8400, 0x9000, 0x9100, 0x9200, 0x9300, 0x9800, 0x9a00,
  0x9b00, 0xa010, 0xa020, 0xa040, 0xf000, 0xf100, 0xf200, 0xf300, 0xf400, 0xf500, 0xf600]

/-- A packet that has only to be long enough: the packet read, or the fresh one and an error. -/
def sized (n : Nat) (fresh p : AnyPacket) (b : Bytes) : Option AnyPacket × Option Err :=
  if b.length < n then (some fresh, some (.read .unexpectedEOF)) else (some p, none)

/-- The packet and the error for a datagram whose header is in order. -/
def bodyOf (b : Bytes) : Option AnyPacket × Option Err :=
  match (opOf b).toNat with
  | 0x2000 => sized 14 (.poll .new) (.poll (pollOf b)) b
  | 0x2100 =>
    if b.length < 239 then (some (.pollReply .new), some (.read .unexpectedEOF))
    else if (byteAt b 14, byteAt b 15) ≠ (0x36, 0x19) ∧ (byteAt b 14, byteAt b 15) ≠ (0x19, 0x36) then
      (some (.pollReply (pollReplyOf b (be16At b 14))), some (.invalidPort (be16At b 14)))
    else if 7 ≤ byteAt b 200 then (some (.pollReply (pollReplyOf b 6454)), some .invalidStyleCode)
    else (some (.pollReply (pollReplyOf b 6454)), none)
  | 0x2300 => sized 530 (.diagData .new) (.diagData (diagDataOf b)) b
  | 0x2400 =>
    if b.length < 528 then (some (.command .new), some (.read .unexpectedEOF))
    else if (byteAt b 12, byteAt b 13) = (0xff, 0xff) then (some (.command (commandOf b)), none)
    else (some (.command (commandOf b)), some .invalidPacket)
  | 0x5000 =>
    let n := (be16At b 16).toNat
    if b.length < 18 then (some (.dmx .new), some .invalidPacket)
    else if n + 18 ≤ b.length ∧ 2 ≤ n ∧ n ≤ 512 ∧ n % 2 = 0 then (some (.dmx (dmxOf b)), none)
    else (some (.dmx { dmxOf b with data := Arr.zero 512 }), some .invalidPacket)
  | 0x5100 => sized 530 (.nzs .new) (.nzs (nzsOf b)) b
  | 0x5200 => sized 14 (.sync .new) (.sync (syncOf b)) b
  | 0x6000 => sized 107 (.address .new) (.address (addressOf b)) b
  | 0x7000 => (none, some (.unimplemented 0x7000))
  | 0x9700 => sized 19 (.timeCode .new) (.timeCode (timeCodeOf b)) b
  | 0x9900 => sized 530 (.trigger .new) (.trigger (triggerOf b)) b
  | 0xf800 => sized 34 (.ipProg .new) (.ipProg (ipProgOf b)) b
  | 0xf900 => sized 34 (.ipProgReply .new) (.ipProgReply (ipProgReplyOf b)) b
  | _ => (none, some (if opOf b ∈ undecoded then .notImplementedOpCode (opOf b) else .invalidOpCodeDispatch (opOf b)))

/-- The packet and the error for any datagram. -/
def resultOf (b : Bytes) : Option AnyPacket × Option Err :=
  if b.length < 12 then (none, some .incorrectHeaderLength)
  else if b.take 8 ≠ magic then (none, some .invalidPacket)
  else if opOf b = 0x0021 then (none, some (.incompatibleVersion 0))
  else if opOf b ≠ 0x2100 ∧ byteAt b 11 < 14 then (none, some (.incompatibleVersion (byteAt b 11)))
  else bodyOf b

/-- UnmarshalBinary of the object takes the datagram. ArtDMX does not look at the opcode, except that for 0x0021 it
compares the version that the object has; ArtPollReply does not look at the identification. -/
def Takes (p : AnyPacket) (b : Bytes) : Prop :=
  match p with
  | .dmx p => b.take 8 = magic ∧
      (opOf b = 0x2100 ∨ 14 ≤ if opOf b = 0x0021 then p.hdr.version.get 1 else byteAt b 11) ∧
      18 + (be16At b 16).toNat ≤ b.length ∧ 2 ≤ (be16At b 16).toNat ∧ (be16At b 16).toNat ≤ 512 ∧
      (be16At b 16).toNat % 2 = 0
  | .pollReply _ => opOf b = 0x2100 ∧ 239 ≤ b.length ∧
      ((byteAt b 14, byteAt b 15) = (0x36, 0x19) ∨ (byteAt b 14, byteAt b 15) = (0x19, 0x36)) ∧ byteAt b 200 < 7
  | .command _ => HeaderOK b ∧ opOf b = 0x2400 ∧ 528 ≤ b.length ∧ (byteAt b 12, byteAt b 13) = (0xff, 0xff)
  | p => HeaderOK b ∧ opOf b = opcodeFor p ∧ sizeFor p ≤ b.length

end Verif.Spec
