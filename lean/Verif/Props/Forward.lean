import Verif.Props.Encode
import Verif.Props.Decode
import Verif.Lemmas.Agree
/-
What forwarding does to the bytes of a datagram: C85, C86.
-/
namespace Verif.Props
open Spec Packet

/-! ### C85 -/

/-- C85: forwarding changes nothing but the positions listed in the definition of `forwarded`. -/
theorem C85_forward_bytes (b : Bytes) (p : AnyPacket) (h : unmarshal b = .ok (some p, none)) :
    (p.marshalBinary).2.1 = (List.range (sizeFor p)).map (forwarded b) := by
  have ha := accepts_of_unmarshal b p h
  rw [C23_wire_layout p (accepted_sendable ha)]
  apply Agree.bytes
  cases ha with
  | poll hh ho => exact forward_poll hh ho
  | pollReply hh ho => exact forward_pollReply hh ho
  | diagData hh ho => exact forward_diagData hh ho
  | command hh ho _ he => exact forward_command hh ho he
  | dmx hh ho => exact forward_dmx hh ho
  | nzs hh ho => exact forward_nzs hh ho
  | sync hh ho => exact forward_sync hh ho
  | address hh ho => exact forward_address hh ho
  | timeCode hh ho => exact forward_timeCode hh ho
  | trigger hh ho => exact forward_trigger hh ho
  | ipProg hh ho => exact forward_ipProg hh ho
  | ipProgReply hh ho => exact forward_ipProgReply hh ho

/-- A datagram that already has the form of a transmitted one is forwarded as it is. -/
theorem C85_forward_identity (b : Bytes) (p : AnyPacket) (h : unmarshal b = .ok (some p, none))
    (hl : b.length = sizeFor p) (hf : ∀ i, i < b.length → forwarded b i = byteAt b i) :
    (p.marshalBinary).2.1 = b := by
  rw [C85_forward_bytes b p h]
  apply List.ext_getElem
  · simp [hl]
  · intro i _ hi
    have := hf i hi
    rw [byteAt, List.getElem?_eq_getElem hi] at this
    simpa using this

/-- A two-channel ArtDMX. -/
example : unmarshal dmx2 = .ok (some (.dmx (dmxOf dmx2)), none) ∧ forwarded dmx2 19 = byteAt dmx2 19 := by
  refine ⟨dmx2_accepted, ?_⟩
  decide

/-! ### C86 -/

/-- C86: two packets that are sent as the same bytes are the same packet, up to the fields that the encoder sets
itself (`received`). -/
theorem C86_encoding_injective (p q : AnyPacket) (hp : Sendable p) (hq : Sendable q)
    (h : (p.marshalBinary).2.1 = (q.marshalBinary).2.1) : received p = received q := by
  have h1 := C10_round_trip p hp
  rw [h, C10_round_trip q hq] at h1
  exact (Option.some.inj (Prod.mk.inj (Except.ok.inj h1)).1).symm

/-- Two ArtDMX packets of the same universe and sequence number with the same bytes have the same channels. -/
example (p q : ArtDMX) (h : (p.marshalBinary).2.1 = (q.marshalBinary).2.1) : p.data = q.data := by
  have := C86_encoding_injective (.dmx p) (.dmx q) trivial trivial h
  injection this with h
  exact (ArtDMX.mk.inj h).2.2.2.2.2.2

end Verif.Props
