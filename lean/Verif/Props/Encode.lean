import Verif.Lemmas.Encode
import Verif.Spec.Kinds
/-
Properties of MarshalBinary and of the encode/decode round trip: C01, C02, C10, C11, C12, C13, C16,
C23.
-/
namespace Verif.Props
open Spec Packet Code

/-- A concrete, non-trivial ArtDMX packet with stale header contents. -/
def sampleDMX : ArtDMX :=
  { hdr := ⟨⟨[1, 2, 3, 4, 5, 6, 7, 8], rfl⟩, 0xbeef, ⟨[9, 9], rfl⟩⟩, sequence := 7, physical := 1,
    subUni := 0x21, net := 3, length := 77, data := (Arr.zero 512).copyFrom [1, 2, 3] }

/-- A concrete ArtPollReply that can be sent. -/
def samplePollReply : ArtPollReply :=
  { ArtPollReply.new with
    ipAddress := ⟨[10, 0, 0, 5], rfl⟩, port := 6454, numPorts := 2, style := 1,
    shortName := (Arr.zero 18).copyFrom [65, 66] }

/-! ### C01 -/

/-- C01: whatever the header and length fields hold, an ArtDMX packet marshals to the 530 bytes of
the Art-Net image. -/
theorem C01_dmx_wire_image (p : ArtDMX) :
    (p.marshalBinary).2 =
      ([0x41, 0x72, 0x74, 0x2d, 0x4e, 0x65, 0x74, 0x00, 0x00, 0x50, 0x00, 0x0e,
        p.sequence, p.physical, p.subUni, p.net, 0x02, 0x00] ++ p.data.val, none) ∧
    (p.marshalBinary).2.1.length = 530 := by
  constructor
  · rw [ArtDMX.marshal_eq, ArtDMX.image_eq]; rfl
  · exact binaryWrite_length _

example : (sampleDMX.marshalBinary).2.1.take 22 =
    [0x41, 0x72, 0x74, 0x2d, 0x4e, 0x65, 0x74, 0, 0, 0x50, 0, 14, 7, 1, 0x21, 3, 2, 0, 1, 2, 3, 0] := by
  rw [(C01_dmx_wire_image sampleDMX).1]; decide +kernel

/-! ### C02 -/

/-- C02: an ArtDMX packet survives marshalling and Unmarshal. -/
theorem C02_dmx_round_trip (p : ArtDMX) :
    ∃ q : ArtDMX, unmarshal (p.marshalBinary).2.1 = .ok (some (.dmx q), none) ∧
      q.sequence = p.sequence ∧ q.physical = p.physical ∧ q.subUni = p.subUni ∧ q.net = p.net ∧
      q.data = p.data ∧ q.length = 512 ∧ (AnyPacket.dmx q).getOpCode = 0x5000 := by
  refine ⟨{ p.finish with hdr := ⟨artNet, OpCode.opDMX, Version.bytes⟩ }, ?_, rfl, rfl, rfl, rfl, rfl,
    rfl, rfl⟩
  rw [ArtDMX.marshal_eq]
  exact ArtDMX.roundtrip p

example : sampleDMX.data ≠ Arr.zero 512 ∧ sampleDMX.length ≠ 512 := by decide +kernel

/-! ### C10 -/

/-- C10 (all types): a sendable packet is received as the packet it was, with identification, version
and opcode set to the protocol's. -/
theorem C10_round_trip (p : AnyPacket) (h : Sendable p) :
    unmarshal (p.marshalBinary).2.1 = .ok (some (received p), none) := by
  cases p with
  | poll p => exact ArtPoll.roundtrip p
  | pollReply p => exact ArtPollReply.roundtrip p (Or.inl h.1) h.2
  | diagData p => exact ArtDiagData.roundtrip p h
  | command p => exact ArtCommand.roundtrip p h
  | dmx p => exact ArtDMX.roundtrip p
  | nzs p => exact ArtNzs.roundtrip p h
  | sync p => exact ArtSync.roundtrip p h
  | address p => exact ArtAddress.roundtrip p h
  | timeCode p => exact ArtTimeCode.roundtrip p h
  | trigger p => exact ArtTrigger.roundtrip p h
  | ipProg p => exact ArtIPProg.roundtrip p h
  | ipProgReply p => exact ArtIPProgReply.roundtrip p h

example : Sendable (.pollReply samplePollReply) := by decide
example : Sendable (.timeCode { ArtTimeCode.new with hdr.opCode := 0x9700, frames := 12, hours := 3 }) := by
  decide

/-! ### C11 -/

/-- The constructors' results, one per packet type (packet/*.go `New…Packet`). -/
def constructed : List AnyPacket :=
  [.poll ArtPoll.new, .pollReply ArtPollReply.new, .diagData ArtDiagData.new, .command ArtCommand.new,
    .dmx ArtDMX.new, .nzs ArtNzs.new, .sync ArtSync.new, .address ArtAddress.new,
    .timeCode ArtTimeCode.new, .trigger ArtTrigger.new, .ipProg ArtIPProg.new,
    .ipProgReply ArtIPProgReply.new]

/-- The packet still has the opcode field its constructor gave it (payload fields are free), and an
ArtPollReply was given the Art-Net port and a declared style. -/
def FreshlyFilled : AnyPacket → Prop
  | .pollReply p => p.opCode = 0 ∧ p.port = 6454 ∧ p.style < 7
  | p => opField p = 0

theorem C11_constructed_fresh : ∀ p ∈ constructed, opField p = 0 := by decide

/-- C11 as stated. -/
def C11_statement : Prop :=
  ∀ p : AnyPacket, FreshlyFilled p → ∃ q, unmarshal (p.marshalBinary).2.1 = .ok (some q, none) ∧
    opcodeFor q = opcodeFor p

/-- The nine types for which the statement fails (for every payload). -/
def NoOpcode : AnyPacket → Prop
  | .poll _ | .dmx _ | .pollReply _ => False
  | _ => True

/-- C11 is false of the code: for nine packet types *every* packet built with the constructor
marshals to a datagram that Unmarshal rejects with "invalid OpCode". -/
theorem C11_constructor_rejected (p : AnyPacket) (hk : NoOpcode p) (h : FreshlyFilled p) :
    unmarshal (p.marshalBinary).2.1 = .ok (none, some (.invalidOpCodeDispatch 0)) := by
  cases p with
  | poll p => exact absurd hk id
  | pollReply p => exact absurd hk id
  | diagData p => exact ArtDiagData.fresh_rejected p h
  | command p => exact ArtCommand.fresh_rejected p h
  | dmx p => exact absurd hk id
  | nzs p => exact ArtNzs.fresh_rejected p h
  | sync p => exact ArtSync.fresh_rejected p h
  | address p => exact ArtAddress.fresh_rejected p h
  | timeCode p => exact ArtTimeCode.fresh_rejected p h
  | trigger p => exact ArtTrigger.fresh_rejected p h
  | ipProg p => exact ArtIPProg.fresh_rejected p h
  | ipProgReply p => exact ArtIPProgReply.fresh_rejected p h

theorem C11_false : ¬ C11_statement := by
  intro h
  obtain ⟨q, hq, _⟩ := h (.sync ArtSync.new) rfl
  rw [C11_constructor_rejected (.sync ArtSync.new) trivial rfl] at hq
  simp at hq

/-- C11, the part that holds: ArtPoll, ArtDMX and ArtPollReply. Missing: the other nine types, for
which `C11_constructor_rejected` shows the opposite. -/
theorem C11_partial (p : AnyPacket) (hk : ¬ NoOpcode p) (h : FreshlyFilled p) :
    ∃ q, unmarshal (p.marshalBinary).2.1 = .ok (some q, none) ∧ opcodeFor q = opcodeFor p := by
  cases p with
  | poll p => exact ⟨_, ArtPoll.roundtrip p, rfl⟩
  | pollReply p => exact ⟨_, ArtPollReply.roundtrip p (Or.inl h.2.1) h.2.2, rfl⟩
  | dmx p => exact ⟨_, ArtDMX.roundtrip p, rfl⟩
  | _ => exact absurd trivial hk

example : FreshlyFilled (.pollReply samplePollReply) ∧ ¬ NoOpcode (.pollReply samplePollReply) :=
  ⟨⟨rfl, rfl, by decide⟩, id⟩
example : FreshlyFilled (.trigger { ArtTrigger.new with key := 1, subKey := 65 }) := rfl

/-! ### C12 -/

/-- The packet object after `n` calls of MarshalBinary. -/
def afterMarshals : Nat → AnyPacket → AnyPacket
  | 0, p => p
  | n + 1, p => afterMarshals n (p.marshalBinary).1

/-- The bytes returned by call number `n` (from 0). -/
def marshalNth (n : Nat) (p : AnyPacket) : Bytes := ((afterMarshals n p).marshalBinary).2.1

/-- C12 as stated. -/
def C12_statement : Prop := ∀ (p : AnyPacket) (n : Nat), marshalNth n p = marshalNth 0 p

/-- For the nine types, a second MarshalBinary exchanges the two opcode bytes of the first. -/
theorem C12_second_marshal_swaps (p : AnyPacket) (hk : NoOpcode p) :
    opOf (marshalNth 0 p) = opField p ∧ opOf (marshalNth 1 p) = be16At (marshalNth 0 p) 8 := by
  have key (op : OpCode) (b0 b1 : Bytes) (h0 : opOf b0 = op) (h1 : opOf b1 = swapUint16 op) :
      opOf b0 = op ∧ opOf b1 = be16At b0 8 := by
    refine ⟨h0, ?_⟩
    rw [h1, ← h0, opOf, swap_le16At]
  cases p with
  | poll p => exact absurd hk id
  | pollReply p => exact absurd hk id
  | dmx p => exact absurd hk id
  | diagData p =>
    exact key _ _ _ (ArtDiagData.write_hdr p.finish _ rfl).2.1 (ArtDiagData.write_hdr p.finish.finish _ rfl).2.1
  | command p =>
    exact key _ _ _ (ArtCommand.write_hdr p.finish _ rfl).2.1 (ArtCommand.write_hdr p.finish.finish _ rfl).2.1
  | nzs p =>
    exact key _ _ _ (ArtNzs.write_hdr p.finish _ rfl).2.1 (ArtNzs.write_hdr p.finish.finish _ rfl).2.1
  | sync p =>
    exact key _ _ _ (ArtSync.write_hdr p.finish _ rfl).2.1 (ArtSync.write_hdr p.finish.finish _ rfl).2.1
  | address p =>
    exact key _ _ _ (ArtAddress.write_hdr p.finish _ rfl).2.1 (ArtAddress.write_hdr p.finish.finish _ rfl).2.1
  | timeCode p =>
    exact key _ _ _ (ArtTimeCode.write_hdr p.finish _ rfl).2.1 (ArtTimeCode.write_hdr p.finish.finish _ rfl).2.1
  | trigger p =>
    exact key _ _ _ (ArtTrigger.write_hdr p.finish _ rfl).2.1 (ArtTrigger.write_hdr p.finish.finish _ rfl).2.1
  | ipProg p =>
    exact key _ _ _ (ArtIPProg.write_hdr p.finish _ rfl).2.1 (ArtIPProg.write_hdr p.finish.finish _ rfl).2.1
  | ipProgReply p =>
    exact key _ _ _ (ArtIPProgReply.write_hdr p.finish _ rfl).2.1 (ArtIPProgReply.write_hdr p.finish.finish _ rfl).2.1

/-- C12 is false of the code: an ArtSync packet with its opcode set is accepted when marshalled once
and rejected when marshalled again. -/
theorem C12_false : ¬ C12_statement := by
  intro h
  have h1 := h (.sync { ArtSync.new with hdr.opCode := 0x5200 }) 1
  have h2 := C12_second_marshal_swaps (.sync { ArtSync.new with hdr.opCode := 0x5200 }) trivial
  rw [h1] at h2
  have h3 : le16At (marshalNth 0 (.sync { ArtSync.new with hdr.opCode := 0x5200 })) 8 = 0x5200 := h2.1
  have h4 : be16At (marshalNth 0 (.sync { ArtSync.new with hdr.opCode := 0x5200 })) 8 = 0x5200 := by
    rw [← h2.2]; exact h3
  rw [← swap_be16At, h4] at h3
  exact absurd h3 (by decide)

theorem C12_second_rejected (p : ArtSync) (h : p.hdr.opCode = 0x5200) :
    unmarshal (marshalNth 1 (.sync p)) = .ok (none, some (.invalidOpCodeDispatch 0x0052)) := by
  obtain ⟨h1, h2, h3⟩ := ArtSync.write_hdr p.finish.finish _ (ArtSync.finish_hdr p.finish)
  have ho : opOf (binaryWrite p.finish.finish) = 0x0052 := by
    rw [h2, ArtSync.finish_hdr, h]; decide
  have hl : (binaryWrite p.finish.finish).length = 14 := binaryWrite_length _
  refine unmarshal_undispatched _ (by show 12 ≤ (binaryWrite p.finish.finish).length; omega)
    (hdrOK_gate h1 (by rw [ho]; decide)) _ ?_
  show dispatch (opOf (binaryWrite p.finish.finish)) = _
  rw [ho]; rfl

/-- Calls two apart return the same bytes, for every packet type. -/
theorem C12_period_two (p : AnyPacket) (n : Nat) : marshalNth (n + 2) p = marshalNth n p := by
  have hh (h : Header) : h.finish.finish.finish = h.finish := by
    simp [Header.finish, Header.swapOpCode]
  have h3 (p : AnyPacket) :
      (((p.marshalBinary).1.marshalBinary).1.marshalBinary).1 = (p.marshalBinary).1 := by
    cases p with
    | poll p => rfl
    | dmx p => rfl
    | pollReply p =>
      show AnyPacket.pollReply p.finish.finish.finish = .pollReply p.finish
      have : swapUint16 (swapUint16 (swapUint16 p.port)) = swapUint16 p.port := swap_swap _
      have h : p.finish.finish.finish =
        { p.finish with port := swapUint16 (swapUint16 (swapUint16 p.port)) } := rfl
      rw [h, this]; rfl
    | diagData p =>
      show AnyPacket.diagData { p with hdr := p.hdr.finish.finish.finish } = .diagData { p with hdr := p.hdr.finish }
      rw [hh]
    | command p =>
      show AnyPacket.command { p.finish with hdr := p.hdr.finish.finish.finish } = .command p.finish
      rw [hh]; rfl
    | nzs p =>
      show AnyPacket.nzs { p with hdr := p.hdr.finish.finish.finish } = .nzs { p with hdr := p.hdr.finish }
      rw [hh]
    | sync p =>
      show AnyPacket.sync { p with hdr := p.hdr.finish.finish.finish } = .sync { p with hdr := p.hdr.finish }
      rw [hh]
    | address p =>
      show AnyPacket.address { p with hdr := p.hdr.finish.finish.finish } = .address { p with hdr := p.hdr.finish }
      rw [hh]
    | timeCode p =>
      show AnyPacket.timeCode { p with hdr := p.hdr.finish.finish.finish } = .timeCode { p with hdr := p.hdr.finish }
      rw [hh]
    | trigger p =>
      show AnyPacket.trigger { p with hdr := p.hdr.finish.finish.finish } = .trigger { p with hdr := p.hdr.finish }
      rw [hh]
    | ipProg p =>
      show AnyPacket.ipProg { p with hdr := p.hdr.finish.finish.finish } = .ipProg { p with hdr := p.hdr.finish }
      rw [hh]
    | ipProgReply p =>
      show AnyPacket.ipProgReply { p with hdr := p.hdr.finish.finish.finish } = .ipProgReply { p with hdr := p.hdr.finish }
      rw [hh]
  have hb (p : AnyPacket) :
      (((p.marshalBinary).1.marshalBinary).1.marshalBinary).2.1 = (p.marshalBinary).2.1 := by
    have : ∀ q : AnyPacket, ∃ f : AnyPacket → Bytes, ∀ r : AnyPacket,
        (r.marshalBinary).2.1 = f (r.marshalBinary).1 := by
      intro _
      refine ⟨fun r => match r with
        | .poll p => binaryWrite p | .pollReply p => binaryWrite p | .diagData p => binaryWrite p
        | .command p => binaryWrite p | .dmx p => binaryWrite p | .nzs p => binaryWrite p
        | .sync p => binaryWrite p | .address p => binaryWrite p | .timeCode p => binaryWrite p
        | .trigger p => binaryWrite p | .ipProg p => binaryWrite p
        | .ipProgReply p => binaryWrite p, ?_⟩
      intro r
      cases r <;> rfl
    obtain ⟨f, hf⟩ := this p
    rw [hf, hf, h3]
  induction n generalizing p with
  | zero => exact hb p
  | succ n ih => exact ih (p.marshalBinary).1

/-- The bytes that MarshalBinary exchanges in the object are equal: none for ArtPoll and ArtDMX, the port of an
ArtPollReply, the opcode of the others. -/
def Palindrome : AnyPacket → Prop
  | .poll _ | .dmx _ => True
  | .pollReply p => p.port.toNat % 256 = p.port.toNat / 256
  | p => (opField p).toNat % 256 = (opField p).toNat / 256

theorem swap_palindrome (x : UInt16) : swapUint16 x = x ↔ x.toNat % 256 = x.toNat / 256 := by
  have h := toNat_swapUint16 x
  have hx := x.toNat_lt
  constructor
  · intro h'
    rw [h'] at h
    omega
  · intro h'
    apply UInt16.toNat_inj.mp
    omega

/-- C12, the part that holds: if the bytes that MarshalBinary exchanges are equal, as they always are for ArtPoll and ArtDMX
and for packets of the other types without opcode, it returns the same bytes any number of times. Missing: all other
packets, for which only every second call agrees (`C12_period_two`, `C12_exact`). -/
theorem C12_partial (p : AnyPacket) (h : Palindrome p) (n : Nat) : marshalNth n p = marshalNth 0 p := by
  have hh (q : Header) (hq : q.opCode.toNat % 256 = q.opCode.toNat / 256) : q.finish.finish = q.finish := by
    have := (swap_palindrome q.opCode).mpr hq
    simp only [Header.finish, Header.swapOpCode, this]
  have h1 : (p.marshalBinary).1.marshalBinary = p.marshalBinary := by
    cases p with
    | poll p => rfl
    | dmx p => rfl
    | pollReply p =>
      have e : p.finish.finish = p.finish := by
        have h2 := (swap_palindrome p.port).mpr h
        have : p.finish.finish = { p.finish with port := swapUint16 (swapUint16 p.port) } := rfl
        rw [this, h2]
        show _ = { p.finish with port := swapUint16 p.port }
        rw [h2]
      show (AnyPacket.pollReply p.finish.finish, binaryWrite p.finish.finish, none) = (AnyPacket.pollReply p.finish, binaryWrite p.finish, none)
      rw [e]
    | diagData p =>
      have e : p.finish.finish = p.finish := by
        show ({ p with hdr := p.hdr.finish.finish } : ArtDiagData) = { p with hdr := p.hdr.finish }
        rw [hh _ h]
      show (AnyPacket.diagData p.finish.finish, binaryWrite p.finish.finish, none) = (AnyPacket.diagData p.finish, binaryWrite p.finish, none)
      rw [e]
    | command p =>
      have e : p.finish.finish = p.finish := by
        show ({ p.finish with hdr := p.hdr.finish.finish } : ArtCommand) = p.finish
        rw [hh _ h]; rfl
      show (AnyPacket.command p.finish.finish, binaryWrite p.finish.finish, none) = (AnyPacket.command p.finish, binaryWrite p.finish, none)
      rw [e]
    | nzs p =>
      have e : p.finish.finish = p.finish := by
        show ({ p with hdr := p.hdr.finish.finish } : ArtNzs) = { p with hdr := p.hdr.finish }
        rw [hh _ h]
      show (AnyPacket.nzs p.finish.finish, binaryWrite p.finish.finish, none) = (AnyPacket.nzs p.finish, binaryWrite p.finish, none)
      rw [e]
    | sync p =>
      have e : p.finish.finish = p.finish := by
        show ({ p with hdr := p.hdr.finish.finish } : ArtSync) = { p with hdr := p.hdr.finish }
        rw [hh _ h]
      show (AnyPacket.sync p.finish.finish, binaryWrite p.finish.finish, none) = (AnyPacket.sync p.finish, binaryWrite p.finish, none)
      rw [e]
    | address p =>
      have e : p.finish.finish = p.finish := by
        show ({ p with hdr := p.hdr.finish.finish } : ArtAddress) = { p with hdr := p.hdr.finish }
        rw [hh _ h]
      show (AnyPacket.address p.finish.finish, binaryWrite p.finish.finish, none) = (AnyPacket.address p.finish, binaryWrite p.finish, none)
      rw [e]
    | timeCode p =>
      have e : p.finish.finish = p.finish := by
        show ({ p with hdr := p.hdr.finish.finish } : ArtTimeCode) = { p with hdr := p.hdr.finish }
        rw [hh _ h]
      show (AnyPacket.timeCode p.finish.finish, binaryWrite p.finish.finish, none) = (AnyPacket.timeCode p.finish, binaryWrite p.finish, none)
      rw [e]
    | trigger p =>
      have e : p.finish.finish = p.finish := by
        show ({ p with hdr := p.hdr.finish.finish } : ArtTrigger) = { p with hdr := p.hdr.finish }
        rw [hh _ h]
      show (AnyPacket.trigger p.finish.finish, binaryWrite p.finish.finish, none) = (AnyPacket.trigger p.finish, binaryWrite p.finish, none)
      rw [e]
    | ipProg p =>
      have e : p.finish.finish = p.finish := by
        show ({ p with hdr := p.hdr.finish.finish } : ArtIPProg) = { p with hdr := p.hdr.finish }
        rw [hh _ h]
      show (AnyPacket.ipProg p.finish.finish, binaryWrite p.finish.finish, none) = (AnyPacket.ipProg p.finish, binaryWrite p.finish, none)
      rw [e]
    | ipProgReply p =>
      have e : p.finish.finish = p.finish := by
        show ({ p with hdr := p.hdr.finish.finish } : ArtIPProgReply) = { p with hdr := p.hdr.finish }
        rw [hh _ h]
      show (AnyPacket.ipProgReply p.finish.finish, binaryWrite p.finish.finish, none) = (AnyPacket.ipProgReply p.finish, binaryWrite p.finish, none)
      rw [e]
  have h2 : ∀ n, (afterMarshals n (p.marshalBinary).1).marshalBinary = p.marshalBinary := by
    intro n
    induction n with
    | zero => exact h1
    | succ n ih =>
      show (afterMarshals n ((p.marshalBinary).1.marshalBinary).1).marshalBinary = _
      rw [h1]
      exact ih
  cases n with
  | zero => rfl
  | succ n =>
    show ((afterMarshals n (p.marshalBinary).1).marshalBinary).2.1 = _
    rw [h2]
    rfl

/-- ArtPoll, ArtDMX, a fresh packet of any type but ArtPollReply. -/
example : (∀ p : ArtPoll, Palindrome (.poll p)) ∧ (∀ p : ArtDMX, Palindrome (.dmx p)) ∧ Palindrome (.sync ArtSync.new) :=
  ⟨fun _ => trivial, fun _ => trivial, rfl⟩

/-- C12: exactly these packets marshal repeatably; for all others the second call already differs from the first. -/
theorem C12_exact (p : AnyPacket) : marshalNth 1 p = marshalNth 0 p ↔ Palindrome p := by
  refine ⟨fun h => ?_, fun h => C12_partial p h 1⟩
  have key (hk : NoOpcode p) : (opField p).toNat % 256 = (opField p).toNat / 256 := by
    obtain ⟨h1, h2⟩ := C12_second_marshal_swaps p hk
    rw [h] at h2
    have h3 : swapUint16 (opOf (marshalNth 0 p)) = be16At (marshalNth 0 p) 8 := swap_le16At ..
    rw [← h2, h1] at h3
    exact (swap_palindrome _).mp h3
  cases p with
  | poll p => trivial
  | dmx p => trivial
  | pollReply p =>
    have h' : (p.finish.marshalBinary).2.1 = (p.marshalBinary).2.1 := h
    rw [ArtPollReply.marshal_eq, ArtPollReply.marshal_eq] at h'
    have e : p.finish.finish = ({ p with port := swapUint16 p.port } : ArtPollReply).finish := rfl
    have h2 := (ArtPollReply.write_facts { p with port := swapUint16 p.port }).2.2.1
    rw [← e, show binaryWrite p.finish.finish = binaryWrite p.finish from h', (ArtPollReply.write_facts p).2.2.1] at h2
    exact (swap_palindrome _).mp h2.symm
  | diagData p => exact key trivial
  | command p => exact key trivial
  | nzs p => exact key trivial
  | sync p => exact key trivial
  | address p => exact key trivial
  | timeCode p => exact key trivial
  | trigger p => exact key trivial
  | ipProg p => exact key trivial
  | ipProgReply p => exact key trivial

/-! ### C13 -/

/-- The same packet with other identification and version bytes (and, for ArtDMX, another Length). -/
def restamped (i : Arr 8) (v : Arr 2) (l : UInt16) : AnyPacket → AnyPacket
  | .poll p => .poll { p with hdr := ⟨i, p.hdr.opCode, v⟩ }
  | .pollReply p => .pollReply { p with id := i }
  | .diagData p => .diagData { p with hdr := ⟨i, p.hdr.opCode, v⟩ }
  | .command p => .command { p with hdr := ⟨i, p.hdr.opCode, v⟩ }
  | .dmx p => .dmx { p with hdr := ⟨i, p.hdr.opCode, v⟩, length := l }
  | .nzs p => .nzs { p with hdr := ⟨i, p.hdr.opCode, v⟩ }
  | .sync p => .sync { p with hdr := ⟨i, p.hdr.opCode, v⟩ }
  | .address p => .address { p with hdr := ⟨i, p.hdr.opCode, v⟩ }
  | .timeCode p => .timeCode { p with hdr := ⟨i, p.hdr.opCode, v⟩ }
  | .trigger p => .trigger { p with hdr := ⟨i, p.hdr.opCode, v⟩ }
  | .ipProg p => .ipProg { p with hdr := ⟨i, p.hdr.opCode, v⟩ }
  | .ipProgReply p => .ipProgReply { p with hdr := ⟨i, p.hdr.opCode, v⟩ }

/-- C13: MarshalBinary never fails, has a fixed size per type and does not depend on ID, Version or
ArtDMX.Length. -/
theorem C13_marshal_total_fixed_size (p : AnyPacket) :
    (p.marshalBinary).2.2 = none ∧ (p.marshalBinary).2.1.length = sizeFor p ∧
    ∀ i v l, ((restamped i v l p).marshalBinary).2 = (p.marshalBinary).2 := by
  cases p <;> exact ⟨rfl, binaryWrite_length _, fun _ _ _ => rfl⟩

example : restamped artNet version14 3 (.dmx sampleDMX) ≠ .dmx sampleDMX := by decide +kernel

/-! ### C16 -/

/-- A packet delivered by Unmarshal holds its opcode and is sendable again. -/
theorem accepted_sendable {b : Bytes} {p : AnyPacket} (h : Accepts b p) : Sendable p := by
  cases h with
  | pollReply _ _ _ _ hs => exact ⟨rfl, hs⟩
  | poll => trivial
  | dmx => trivial
  | diagData _ ho => exact ho
  | command _ ho => exact ho
  | nzs _ ho => exact ho
  | sync _ ho => exact ho
  | address _ ho => exact ho
  | timeCode _ ho => exact ho
  | trigger _ ho => exact ho
  | ipProg _ ho => exact ho
  | ipProgReply _ ho => exact ho

/-- Only the version (and, for ArtDMX, the Length) differ. -/
def sameButVersion : AnyPacket → AnyPacket → Prop
  | .poll p, .poll q => q = { p with hdr.version := version14 }
  | .pollReply p, .pollReply q => q = p
  | .diagData p, .diagData q => q = { p with hdr.version := version14 }
  | .command p, .command q => q = { p with hdr.version := version14 }
  | .dmx p, .dmx q => q = { p with hdr.version := version14, length := 512 }
  | .nzs p, .nzs q => q = { p with hdr.version := version14 }
  | .sync p, .sync q => q = { p with hdr.version := version14 }
  | .address p, .address q => q = { p with hdr.version := version14 }
  | .timeCode p, .timeCode q => q = { p with hdr.version := version14 }
  | .trigger p, .trigger q => q = { p with hdr.version := version14 }
  | .ipProg p, .ipProg q => q = { p with hdr.version := version14 }
  | .ipProgReply p, .ipProgReply q => q = { p with hdr.version := version14 }
  | _, _ => False

theorem arrAt_magic {b : Bytes} (h : HeaderOK b) : arrAt b 0 8 = magicArr :=
  ((headerOK_iff b).mp h).2.1

theorem accepted_received {b : Bytes} {p : AnyPacket} (h : Accepts b p) :
    sameButVersion p (received p) := by
  cases h with
  | command hh ho _ he =>
    simp only [received, sameButVersion, commandOf, hdrOf, arrAt_magic hh, ho, (esta_iff b).mpr he]
  | pollReply hh ho => simp only [received, sameButVersion, pollReplyOf, arrAt_magic hh, ho]
  | poll hh ho => simp only [received, sameButVersion, pollOf, hdrOf, arrAt_magic hh, ho]
  | dmx hh ho => simp only [received, sameButVersion, dmxOf, hdrOf, arrAt_magic hh, ho]
  | diagData hh ho => simp only [received, sameButVersion, diagDataOf, hdrOf, arrAt_magic hh, ho]
  | nzs hh ho => simp only [received, sameButVersion, nzsOf, hdrOf, arrAt_magic hh, ho]
  | sync hh ho => simp only [received, sameButVersion, syncOf, hdrOf, arrAt_magic hh, ho]
  | address hh ho => simp only [received, sameButVersion, addressOf, hdrOf, arrAt_magic hh, ho]
  | timeCode hh ho => simp only [received, sameButVersion, timeCodeOf, hdrOf, arrAt_magic hh, ho]
  | trigger hh ho => simp only [received, sameButVersion, triggerOf, hdrOf, arrAt_magic hh, ho]
  | ipProg hh ho => simp only [received, sameButVersion, ipProgOf, hdrOf, arrAt_magic hh, ho]
  | ipProgReply hh ho => simp only [received, sameButVersion, ipProgReplyOf, hdrOf, arrAt_magic hh, ho]

theorem received_sendable {p : AnyPacket} (h : Sendable p) : Sendable (received p) := by
  cases p with
  | pollReply p => exact ⟨rfl, h.2⟩
  | poll p => trivial
  | dmx p => trivial
  | _ => rfl

/-! ### C23 -/

/-- C23: every sendable packet marshals to its Art-Net image. (ArtPollReply needs neither port nor
style: see `C23_pollreply_image`.) -/
theorem C23_wire_layout (p : AnyPacket) (h : Sendable p) : (p.marshalBinary).2 = (imageOf p, none) := by
  cases p with
  | poll p => exact congrArg (·, none) (ArtPoll.image_eq p)
  | pollReply p => exact congrArg (·, none) (ArtPollReply.image_eq p)
  | diagData p => exact congrArg (·, none) (ArtDiagData.image_eq p h)
  | command p => exact congrArg (·, none) (ArtCommand.image_eq p h)
  | dmx p => exact congrArg (·, none) (ArtDMX.image_eq p)
  | nzs p => exact congrArg (·, none) (ArtNzs.image_eq p h)
  | sync p => exact congrArg (·, none) (ArtSync.image_eq p h)
  | address p => exact congrArg (·, none) (ArtAddress.image_eq p h)
  | timeCode p => exact congrArg (·, none) (ArtTimeCode.image_eq p h)
  | trigger p => exact congrArg (·, none) (ArtTrigger.image_eq p h)
  | ipProg p => exact congrArg (·, none) (ArtIPProg.image_eq p h)
  | ipProgReply p => exact congrArg (·, none) (ArtIPProgReply.image_eq p h)

theorem C23_pollreply_image (p : ArtPollReply) : (p.marshalBinary).2 = (pollReplyImage p, none) :=
  congrArg (·, none) (ArtPollReply.image_eq p)

example : Sendable (.address { ArtAddress.new with hdr.opCode := 0x6000, netSwitch := 0x83 }) := by decide

/-- C16: a decoded packet can be forwarded: it is accepted again, only version (and ArtDMX length) are
normalised, and forwarding that packet gives the same bytes again. -/
theorem C16_forward_stable (b : Bytes) (p : AnyPacket) (h : unmarshal b = .ok (some p, none)) :
    ∃ q, unmarshal (p.marshalBinary).2.1 = .ok (some q, none) ∧ sameButVersion p q ∧
      (q.marshalBinary).2.1 = (p.marshalBinary).2.1 := by
  have ha := accepts_of_unmarshal b p h
  have hs := accepted_sendable ha
  refine ⟨received p, C10_round_trip p hs, accepted_received ha, ?_⟩
  rw [C23_wire_layout p hs, C23_wire_layout _ (received_sendable hs)]
  cases p with
  | pollReply p =>
    have hp : p.port = 6454 := hs.1
    show pollReplyImage { p with id := magicArr, opCode := 0x2100, port := 6454 } = pollReplyImage p
    rw [← hp]
    rfl
  | _ => rfl

/-- The premise of C16 is met by an ArtDMX datagram that carries only two channels. -/
example : ∃ p, unmarshal ([0x41, 0x72, 0x74, 0x2d, 0x4e, 0x65, 0x74, 0, 0, 0x50, 0, 14, 1, 0, 5, 0, 0, 2,
    9, 8]) = .ok (some p, none) :=
  ⟨_, unmarshal_of_accepts _ _ (.dmx _ (by decide) rfl (by decide) (by decide) (by decide) (by decide))⟩

end Verif.Props
