import Verif.Spec.Accept
/-
Tables indexed by packet type: opcode, wire size, padding positions, normal form after forwarding.
-/
namespace Verif.Spec
open Packet

/-- The Art-Net opcode of each packet type. -/
def opcodeFor : AnyPacket → UInt16
  | .poll _ => 0x2000
  | .pollReply _ => 0x2100
  | .diagData _ => 0x2300
  | .command _ => 0x2400
  | .dmx _ => 0x5000
  | .nzs _ => 0x5100
  | .sync _ => 0x5200
  | .address _ => 0x6000
  | .timeCode _ => 0x9700
  | .trigger _ => 0x9900
  | .ipProg _ => 0xf800
  | .ipProgReply _ => 0xf900

/-- The wire size of each packet type (ArtDMX: as transmitted). -/
def sizeFor : AnyPacket → Nat
  | .poll _ => 14
  | .pollReply _ => 239
  | .diagData _ => 530
  | .command _ => 528
  | .dmx _ => 530
  | .nzs _ => 530
  | .sync _ => 14
  | .address _ => 107
  | .timeCode _ => 19
  | .trigger _ => 530
  | .ipProg _ => 34
  | .ipProgReply _ => 34

/-- The smallest datagram a type's decoder looks at: the wire size, 18 for the variable ArtDMX. -/
def minSizeFor : AnyPacket → Nat
  | .dmx _ => 18
  | p => sizeFor p

/-- The opcode currently stored in the object. -/
def opField : AnyPacket → UInt16
  | .poll p => p.hdr.opCode
  | .pollReply p => p.opCode
  | .diagData p => p.hdr.opCode
  | .command p => p.hdr.opCode
  | .dmx p => p.hdr.opCode
  | .nzs p => p.hdr.opCode
  | .sync p => p.hdr.opCode
  | .address p => p.hdr.opCode
  | .timeCode p => p.hdr.opCode
  | .trigger p => p.hdr.opCode
  | .ipProg p => p.hdr.opCode
  | .ipProgReply p => p.hdr.opCode

/-- Filler and spare byte positions, by opcode. -/
def padFor (op : UInt16) : List Nat :=
  if op = 0x2300 then [12, 14, 15]
  else if op = 0x5200 then [12, 13]
  else if op = 0x9700 then [12, 13]
  else if op = 0x9900 then [12, 13]
  else if op = 0xf800 then [12, 13, 15, 26, 27, 28, 29, 30, 31, 32, 33]
  else if op = 0xf900 then [12, 13, 14, 15, 27, 28, 29, 30, 31, 32, 33]
  else if op = 0x2100 then
    [197, 198, 199, 213, 214, 215, 216, 217, 218, 219, 220, 221, 222, 223, 224, 225, 226, 227, 228,
      229, 230, 231, 232, 233, 234, 235, 236, 237, 238]
  else []

/-- Protocol version 14 as transmitted. -/
def version14 : Arr 2 := ⟨[0, 14], rfl⟩

/-- The magic as an array. -/
def magicArr : Arr 8 := ⟨magic, rfl⟩

/-- What a packet looks like after it was sent with its opcode set and received: identification,
version and opcode are the protocol's, ArtCommand carries ff ff, ArtDMX 512 channels, and all other
fields are unchanged. -/
def received : AnyPacket → AnyPacket
  | .poll p => .poll { p with hdr := ⟨magicArr, 0x2000, version14⟩ }
  | .pollReply p => .pollReply { p with id := magicArr, opCode := 0x2100, port := 6454 }
  | .diagData p => .diagData { p with hdr := ⟨magicArr, 0x2300, version14⟩ }
  | .command p => .command { p with hdr := ⟨magicArr, 0x2400, version14⟩,
                                    estaManufacturer := ⟨[0xff, 0xff], rfl⟩ }
  | .dmx p => .dmx { p with hdr := ⟨magicArr, 0x5000, version14⟩, length := 512 }
  | .nzs p => .nzs { p with hdr := ⟨magicArr, 0x5100, version14⟩ }
  | .sync p => .sync { p with hdr := ⟨magicArr, 0x5200, version14⟩ }
  | .address p => .address { p with hdr := ⟨magicArr, 0x6000, version14⟩ }
  | .timeCode p => .timeCode { p with hdr := ⟨magicArr, 0x9700, version14⟩ }
  | .trigger p => .trigger { p with hdr := ⟨magicArr, 0x9900, version14⟩ }
  | .ipProg p => .ipProg { p with hdr := ⟨magicArr, 0xf800, version14⟩ }
  | .ipProgReply p => .ipProgReply { p with hdr := ⟨magicArr, 0xf900, version14⟩ }

/-- The transmitted image of a packet whose opcode is set. -/
def imageOf : AnyPacket → Bytes
  | .poll p => pollImage p
  | .pollReply p => pollReplyImage p
  | .diagData p => diagDataImage p
  | .command p => commandImage p
  | .dmx p => dmxImage p
  | .nzs p => nzsImage p
  | .sync p => syncImage p
  | .address p => addressImage p
  | .timeCode p => timeCodeImage p
  | .trigger p => triggerImage p
  | .ipProg p => ipProgImage p
  | .ipProgReply p => ipProgReplyImage p

/-- A packet ready to be sent: the object holds its type's opcode, and an ArtPollReply holds the
Art-Net port and a declared style. ArtPoll and ArtDMX need nothing. -/
def Sendable : AnyPacket → Prop
  | .poll _ => True
  | .dmx _ => True
  | .pollReply p => p.port = 6454 ∧ p.style < 7
  | p => opField p = opcodeFor p

instance (p : AnyPacket) : Decidable (Sendable p) := by
  cases p <;> simp only [Sendable] <;> infer_instance

end Verif.Spec
