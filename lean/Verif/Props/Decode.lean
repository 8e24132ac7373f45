import Verif.Lemmas.Encode
import Verif.Lemmas.Pad
import Verif.Lemmas.Opcode
/-
Properties of Unmarshal and UnmarshalBinary: C03–C09, C14, C15, C17–C22.
-/
namespace Verif.Props
open Spec Packet Code

/-- An ArtDmx datagram with two channels. -/
def dmx2 : Bytes := [0x41, 0x72, 0x74, 0x2d, 0x4e, 0x65, 0x74, 0, 0, 0x50, 0, 14, 1, 0, 5, 0, 0, 2, 9, 8]

/-- An ArtPoll datagram. -/
def poll1 : Bytes := [0x41, 0x72, 0x74, 0x2d, 0x4e, 0x65, 0x74, 0, 0, 0x20, 0, 14, 6, 0x10]

theorem dmx2_accepted : unmarshal dmx2 = .ok (some (.dmx (dmxOf dmx2)), none) :=
  unmarshal_of_accepts _ _ (.dmx _ (by decide) rfl (by decide) (by decide) (by decide) (by decide))

theorem poll1_accepted : unmarshal poll1 = .ok (some (.poll (pollOf poll1)), none) :=
  unmarshal_of_accepts _ _ (.poll _ (by decide) rfl (by decide))

/-! ### Exact acceptance -/

/-- Unmarshal delivers packet `p` without error exactly on the datagrams that the specification
`Accepts` relates to `p`. -/
theorem unmarshal_exact (b : Bytes) (p : AnyPacket) :
    unmarshal b = .ok (some p, none) ↔ Accepts b p := unmarshal_iff_accepts b p

example : Accepts dmx2 (.dmx (dmxOf dmx2)) := (unmarshal_exact _ _).mp dmx2_accepted

/-! ### C03 -/

/-- C03: an ArtDmx datagram with a valid header is accepted iff its length field is even, within
2..512 and covered by the datagram; the channels beyond the length field are zero. -/
theorem C03_dmx_acceptance (b : Bytes) (hh : HeaderOK b) (ho : opOf b = 0x5000) :
    ((∃ p, unmarshal b = .ok (some p, none)) ↔
      18 ≤ b.length ∧ (be16At b 16).toNat % 2 = 0 ∧ 2 ≤ (be16At b 16).toNat ∧
      (be16At b 16).toNat ≤ 512 ∧ 18 + (be16At b 16).toNat ≤ b.length) ∧
    (∀ p, unmarshal b = .ok (some p, none) → ∃ q : ArtDMX, p = .dmx q ∧ q.length = be16At b 16 ∧
      q.sequence = byteAt b 12 ∧ q.physical = byteAt b 13 ∧ q.subUni = byteAt b 14 ∧
      q.net = byteAt b 15 ∧
      ∀ i : Fin 512, q.data.get i = if i.val < (be16At b 16).toNat then byteAt b (18 + i) else 0) := by
  constructor
  · constructor
    · rintro ⟨p, hp⟩
      cases accepts_of_unmarshal b p hp with
      | dmx _ _ h1 h2 h3 h4 => omega
      | poll _ ho' => exact absurd (ho.symm.trans ho') (by decide)
      | pollReply _ ho' => exact absurd (ho.symm.trans ho') (by decide)
      | diagData _ ho' => exact absurd (ho.symm.trans ho') (by decide)
      | command _ ho' => exact absurd (ho.symm.trans ho') (by decide)
      | nzs _ ho' => exact absurd (ho.symm.trans ho') (by decide)
      | sync _ ho' => exact absurd (ho.symm.trans ho') (by decide)
      | address _ ho' => exact absurd (ho.symm.trans ho') (by decide)
      | timeCode _ ho' => exact absurd (ho.symm.trans ho') (by decide)
      | trigger _ ho' => exact absurd (ho.symm.trans ho') (by decide)
      | ipProg _ ho' => exact absurd (ho.symm.trans ho') (by decide)
      | ipProgReply _ ho' => exact absurd (ho.symm.trans ho') (by decide)
    · rintro ⟨h0, h1, h2, h3, h4⟩
      exact ⟨_, unmarshal_of_accepts _ _ (.dmx b hh ho h4 h2 h3 h1)⟩
  · intro p hp
    cases accepts_of_unmarshal b p hp with
    | dmx _ _ h1 h2 h3 h4 =>
      exact ⟨dmxOf b, rfl, rfl, rfl, rfl, rfl, rfl, fun i => arr_ofFn_get _ i⟩
    | poll _ ho' => exact absurd (ho.symm.trans ho') (by decide)
    | pollReply _ ho' => exact absurd (ho.symm.trans ho') (by decide)
    | diagData _ ho' => exact absurd (ho.symm.trans ho') (by decide)
    | command _ ho' => exact absurd (ho.symm.trans ho') (by decide)
    | nzs _ ho' => exact absurd (ho.symm.trans ho') (by decide)
    | sync _ ho' => exact absurd (ho.symm.trans ho') (by decide)
    | address _ ho' => exact absurd (ho.symm.trans ho') (by decide)
    | timeCode _ ho' => exact absurd (ho.symm.trans ho') (by decide)
    | trigger _ ho' => exact absurd (ho.symm.trans ho') (by decide)
    | ipProg _ ho' => exact absurd (ho.symm.trans ho') (by decide)
    | ipProgReply _ ho' => exact absurd (ho.symm.trans ho') (by decide)

example : HeaderOK dmx2 ∧ opOf dmx2 = 0x5000 ∧ (be16At dmx2 16).toNat = 2 := by decide

/-! ### C04 -/

/-- C04: Unmarshal returns normally on every byte string, and so does every UnmarshalBinary on every
object (no index or slice expression is out of range). -/
theorem C04_unmarshal_never_panics (b : Bytes) :
    (∃ r, unmarshal b = .ok r) ∧ ∀ p : AnyPacket, ∃ r, p.unmarshalBinary b = .ok r := by
  refine ⟨unmarshal_total b, fun p => ?_⟩
  cases p with
  | dmx p =>
    by_cases h : b.length < 18
    · exact ⟨_, dmx_any_of (ArtDMX.unmarshal_short p b h)⟩
    · exact ⟨_, dmx_any_of (ArtDMX.unmarshal_eq p b (by omega))⟩
  | _ => exact ⟨_, rfl⟩

example : unmarshal [] = .ok (none, some .incorrectHeaderLength) := rfl

/-! ### C05 -/

/-- C05: what Unmarshal accepts has 12 bytes, the magic and (ArtPollReply excepted) a version byte of
at least 14; a datagram failing one of these is rejected with the corresponding error. -/
theorem C05_header_gate (b : Bytes) :
    (∀ p, unmarshal b = .ok (some p, none) →
      12 ≤ b.length ∧ b.take 8 = magic ∧ (opOf b = 0x2100 ∨ 14 ≤ byteAt b 11)) ∧
    (b.length < 12 → unmarshal b = .ok (none, some .incorrectHeaderLength)) ∧
    (12 ≤ b.length → b.take 8 ≠ magic → unmarshal b = .ok (none, some .invalidPacket)) ∧
    (12 ≤ b.length → b.take 8 = magic → opOf b ≠ 0x2100 → byteAt b 11 < 14 →
      ∃ v, v < 14 ∧ unmarshal b = .ok (none, some (.incompatibleVersion v))) := by
  refine ⟨?_, unmarshal_short b, ?_, ?_⟩
  · intro p hp
    cases accepts_of_unmarshal b p hp with
    | poll hh => exact hh
    | pollReply hh => exact hh
    | diagData hh => exact hh
    | command hh => exact hh
    | dmx hh => exact hh
    | nzs hh => exact hh
    | sync hh => exact hh
    | address hh => exact hh
    | timeCode hh => exact hh
    | trigger hh => exact hh
    | ipProg hh => exact hh
    | ipProgReply hh => exact hh
  · intro h hm
    refine unmarshal_magic b h fun hc => hm ?_
    rw [← arrAt_val_take b 8 (by omega)]
    exact (artNet_magic b).mp hc
  · intro h hm ho hv
    have hm' : arrAt b 0 8 = artNet :=
      (artNet_magic b).mpr (by rw [arrAt_val_take b 8 (by omega)]; exact hm)
    have hsv : seenVersion b < 14 := by
      unfold seenVersion
      split
      · decide
      · exact hv
    exact ⟨_, hsv, unmarshal_version b h hm' ⟨ho, hsv⟩⟩

example : ∃ p, unmarshal poll1 = .ok (some p, none) := ⟨_, poll1_accepted⟩
example : (poll1.set 11 13).take 8 = magic ∧ byteAt (poll1.set 11 13) 11 < 14 := by decide

/-! ### C06 -/

/-- C06: the type of a delivered packet belongs to the opcode on the wire, and GetOpCode returns it. -/
theorem C06_dispatch_fidelity (b : Bytes) (p : AnyPacket) (h : unmarshal b = .ok (some p, none)) :
    opcodeFor p = opOf b ∧ p.getOpCode = opOf b := by
  cases accepts_of_unmarshal b p h with
  | poll _ ho => exact ⟨ho.symm, rfl⟩
  | pollReply _ ho => exact ⟨ho.symm, rfl⟩
  | diagData _ ho => exact ⟨ho.symm, rfl⟩
  | command _ ho => exact ⟨ho.symm, rfl⟩
  | dmx _ ho => exact ⟨ho.symm, rfl⟩
  | nzs _ ho => exact ⟨ho.symm, rfl⟩
  | sync _ ho => exact ⟨ho.symm, rfl⟩
  | address _ ho => exact ⟨ho.symm, rfl⟩
  | timeCode _ ho => exact ⟨ho.symm, rfl⟩
  | trigger _ ho => exact ⟨ho.symm, rfl⟩
  | ipProg _ ho => exact ⟨ho.symm, rfl⟩
  | ipProgReply _ ho => exact ⟨ho.symm, rfl⟩

example : unmarshal dmx2 = .ok (some (.dmx (dmxOf dmx2)), none) := dmx2_accepted

/-! ### C07 -/

/-- The result of Unmarshal agrees with ValidOp and with the packet types there are: the error "invalid OpCode" for the
opcodes that ValidOp rejects and no others; a packet object of the type, with or without an error, for the opcode of a
packet type; an error saying that it is not implemented for every other opcode. -/
def Classified (b : Bytes) : Prop :=
  ((∃ o, unmarshal b = .ok (none, some (.invalidOpCodeDispatch o))) ↔ OpCode.validOp (opOf b) = false) ∧
  ((∃ q, opcodeFor q = opOf b) → ∃ p e, unmarshal b = .ok (some p, e) ∧ opcodeFor p = opOf b) ∧
  (OpCode.validOp (opOf b) = true → (¬ ∃ q, opcodeFor q = opOf b) →
    unmarshal b = .ok (none, some (.notImplementedOpCode (opOf b))) ∨
    (opOf b = 0x7000 ∧ unmarshal b = .ok (none, some (.unimplemented (opOf b)))))

/-- C07 as stated. -/
def C07_statement : Prop := ∀ b : Bytes, HeaderOK b → Classified b

/-- The opcode 0x0021 (OpPollReply with its bytes exchanged) is reported as a version error although
the version byte is good, because the header decoder compares the opcode before swapping it. -/
theorem C07_false : ¬ C07_statement := by
  intro h
  have h1 := (h [0x41, 0x72, 0x74, 0x2d, 0x4e, 0x65, 0x74, 0, 0x21, 0x00, 0, 14] (by decide)).1.mpr
    (by decide)
  obtain ⟨o, ho⟩ := h1
  have : unmarshal [0x41, 0x72, 0x74, 0x2d, 0x4e, 0x65, 0x74, 0, 0x21, 0x00, 0, 14] =
      .ok (none, some (.incompatibleVersion 0)) := by rfl
  rw [this] at ho
  simp at ho

/-- C07, the part that holds: every opcode but 0x0021. -/
theorem C07_partial (b : Bytes) (hh : HeaderOK b) (hne : opOf b ≠ 0x0021) : Classified b := by
  obtain ⟨h12, hg⟩ := gate_of_headerOK hh hne
  have hc := dispatch_classify (opOf b)
  have hdec : (∃ q, opcodeFor q = opOf b) → ∃ p, dispatch (opOf b) = .ok p := by
    rintro ⟨q, hq⟩
    rw [← hq]
    cases q <;> exact ⟨_, rfl⟩
  unfold Classified
  rw [unmarshal_gate b h12 hg]
  cases hd : dispatch (opOf b) with
  | error e =>
    rw [hd] at hc hdec
    simp only
    have hno : ¬ ∃ q, opcodeFor q = opOf b := fun hq => by obtain ⟨p, hp⟩ := hdec hq; cases hp
    rcases hc with ⟨hv, he⟩ | ⟨hv, he⟩ | ⟨hv, ho, he⟩ | ⟨_, p, he, _⟩
    · cases he; exact ⟨by simp [hv], fun h => absurd h hno, fun h => by rw [hv] at h; cases h⟩
    · cases he; exact ⟨by simp [hv], fun h => absurd h hno, fun _ _ => .inl rfl⟩
    · cases he; exact ⟨by simp [hv], fun h => absurd h hno, fun _ _ => .inr ⟨ho, rfl⟩⟩
    · simp at he
  | ok p =>
    rw [hd] at hc
    rcases hc with ⟨hv, he⟩ | ⟨hv, he⟩ | ⟨hv, ho, he⟩ | ⟨hv, q, he, hq⟩
    · simp at he
    · simp at he
    · simp at he
    · cases he
      obtain ⟨⟨r, e⟩, hr⟩ := (C04_unmarshal_never_panics b).2 p
      have hk := unmarshalBinary_kind p b r e hr
      simp only [hr, hv]
      exact ⟨by simp, fun _ => ⟨r, e, rfl, by rw [hk]; exact hq⟩, fun _ h => absurd ⟨p, hq⟩ h⟩

/-- For the opcode 0x0021 it never holds. -/
theorem C07_exact (b : Bytes) (hh : HeaderOK b) : Classified b ↔ opOf b ≠ 0x0021 := by
  refine ⟨fun h ho => ?_, C07_partial b hh⟩
  obtain ⟨o, h1⟩ := h.1.mpr (by rw [ho]; decide)
  have hm : arrAt b 0 8 = artNet := by
    have := hh.2.1
    rw [artNet_magic, arrAt_val_take b 8 (by have := hh.1; omega)]
    exact this
  have hs : seenVersion b = 0 := by rw [seenVersion, if_pos ((be16_pollReply_iff b).mpr ho)]
  rw [unmarshal_version b hh.1 hm ⟨by rw [ho]; decide, by rw [hs]; decide⟩] at h1
  cases h1

example : HeaderOK poll1 ∧ opOf poll1 ≠ 0x0021 ∧ OpCode.validOp (opOf poll1) = true := by decide
example : HeaderOK (poll1.set 9 0x77) ∧ OpCode.validOp (opOf (poll1.set 9 0x77)) = false := by decide

/-! ### C08 -/

/-- C08: UnmarshalBinary on a datagram below the type's size returns an error and leaves the object
as it was; Unmarshal rejects the datagram too. -/
theorem C08_truncated_rejected (b : Bytes) :
    (∀ p : AnyPacket, b.length < minSizeFor p → ∃ e, p.unmarshalBinary b = .ok (p, some e)) ∧
    (∀ p q : AnyPacket, opOf b = opcodeFor p → b.length < minSizeFor p →
      unmarshal b ≠ .ok (some q, none)) := by
  constructor
  · intro p hl
    cases p with
    | dmx p =>
      exact ⟨_, by simp [AnyPacket.unmarshalBinary, ArtDMX.unmarshal_short p b hl, bind, Except.bind,
        pure, Except.pure]; rfl⟩
    | poll p =>
      have : p.unmarshalBinary b = _ := unmarshalPacket_short p b hl
      exact ⟨_, by simp only [AnyPacket.unmarshalBinary, this]; rfl⟩
    | pollReply p =>
      have : p.unmarshalBinary b = _ := unmarshalPacket_short p b hl
      exact ⟨_, by simp only [AnyPacket.unmarshalBinary, this]; rfl⟩
    | diagData p =>
      have : p.unmarshalBinary b = _ := unmarshalPacket_short p b hl
      exact ⟨_, by simp only [AnyPacket.unmarshalBinary, this]; rfl⟩
    | command p =>
      have : p.unmarshalBinary b = _ := unmarshalPacket_short p b hl
      exact ⟨_, by simp only [AnyPacket.unmarshalBinary, this]; rfl⟩
    | nzs p =>
      have : p.unmarshalBinary b = _ := unmarshalPacket_short p b hl
      exact ⟨_, by simp only [AnyPacket.unmarshalBinary, this]; rfl⟩
    | sync p =>
      have : p.unmarshalBinary b = _ := unmarshalPacket_short p b hl
      exact ⟨_, by simp only [AnyPacket.unmarshalBinary, this]; rfl⟩
    | address p =>
      have : p.unmarshalBinary b = _ := unmarshalPacket_short p b hl
      exact ⟨_, by simp only [AnyPacket.unmarshalBinary, this]; rfl⟩
    | timeCode p =>
      have : p.unmarshalBinary b = _ := unmarshalPacket_short p b hl
      exact ⟨_, by simp only [AnyPacket.unmarshalBinary, this]; rfl⟩
    | trigger p =>
      have : p.unmarshalBinary b = _ := unmarshalPacket_short p b hl
      exact ⟨_, by simp only [AnyPacket.unmarshalBinary, this]; rfl⟩
    | ipProg p =>
      have : p.unmarshalBinary b = _ := unmarshalPacket_short p b hl
      exact ⟨_, by simp only [AnyPacket.unmarshalBinary, this]; rfl⟩
    | ipProgReply p =>
      have : p.unmarshalBinary b = _ := unmarshalPacket_short p b hl
      exact ⟨_, by simp only [AnyPacket.unmarshalBinary, this]; rfl⟩
  · intro p q ho hl hu
    have hk := C06_dispatch_fidelity b q hu
    have ho' : opcodeFor p = opcodeFor q := by rw [← ho, hk.1]
    have hmin : minSizeFor p = minSizeFor q := by
      cases p <;> cases q <;> first | rfl | (simp [opcodeFor] at ho')
    rw [hmin] at hl
    cases accepts_of_unmarshal b q hu with
    | dmx _ _ h1 h2 => simp only [minSizeFor] at hl; omega
    | poll _ _ h1 => simp only [minSizeFor, sizeFor] at hl; omega
    | pollReply _ _ h1 => simp only [minSizeFor, sizeFor] at hl; omega
    | diagData _ _ h1 => simp only [minSizeFor, sizeFor] at hl; omega
    | command _ _ h1 => simp only [minSizeFor, sizeFor] at hl; omega
    | nzs _ _ h1 => simp only [minSizeFor, sizeFor] at hl; omega
    | sync _ _ h1 => simp only [minSizeFor, sizeFor] at hl; omega
    | address _ _ h1 => simp only [minSizeFor, sizeFor] at hl; omega
    | timeCode _ _ h1 => simp only [minSizeFor, sizeFor] at hl; omega
    | trigger _ _ h1 => simp only [minSizeFor, sizeFor] at hl; omega
    | ipProg _ _ h1 => simp only [minSizeFor, sizeFor] at hl; omega
    | ipProgReply _ _ h1 => simp only [minSizeFor, sizeFor] at hl; omega

/-- The bound is exact: at the wire size a datagram with a good header is accepted by the decoder
(ArtCommand and ArtPollReply have further conditions, C14 and C17; ArtDMX, C03). -/
theorem C08_bound_exact (b : Bytes) (hh : HeaderOK b) :
    (opOf b = opcodeFor (.poll ArtPoll.new) → sizeFor (.poll ArtPoll.new) ≤ b.length →
      unmarshal b = .ok (some (.poll (pollOf b)), none)) ∧
    (opOf b = opcodeFor (.diagData ArtDiagData.new) → sizeFor (.diagData ArtDiagData.new) ≤ b.length →
      unmarshal b = .ok (some (.diagData (diagDataOf b)), none)) ∧
    (opOf b = opcodeFor (.nzs ArtNzs.new) → sizeFor (.nzs ArtNzs.new) ≤ b.length →
      unmarshal b = .ok (some (.nzs (nzsOf b)), none)) ∧
    (opOf b = opcodeFor (.sync ArtSync.new) → sizeFor (.sync ArtSync.new) ≤ b.length →
      unmarshal b = .ok (some (.sync (syncOf b)), none)) ∧
    (opOf b = opcodeFor (.address ArtAddress.new) → sizeFor (.address ArtAddress.new) ≤ b.length →
      unmarshal b = .ok (some (.address (addressOf b)), none)) ∧
    (opOf b = opcodeFor (.timeCode ArtTimeCode.new) → sizeFor (.timeCode ArtTimeCode.new) ≤ b.length →
      unmarshal b = .ok (some (.timeCode (timeCodeOf b)), none)) ∧
    (opOf b = opcodeFor (.trigger ArtTrigger.new) → sizeFor (.trigger ArtTrigger.new) ≤ b.length →
      unmarshal b = .ok (some (.trigger (triggerOf b)), none)) ∧
    (opOf b = opcodeFor (.ipProg ArtIPProg.new) → sizeFor (.ipProg ArtIPProg.new) ≤ b.length →
      unmarshal b = .ok (some (.ipProg (ipProgOf b)), none)) ∧
    (opOf b = opcodeFor (.ipProgReply ArtIPProgReply.new) → sizeFor (.ipProgReply ArtIPProgReply.new) ≤ b.length →
      unmarshal b = .ok (some (.ipProgReply (ipProgReplyOf b)), none)) := by
  refine ⟨?_, ?_, ?_, ?_, ?_, ?_, ?_, ?_, ?_⟩
  · intro ho hl; exact unmarshal_of_accepts _ _ (.poll b hh ho hl)
  · intro ho hl; exact unmarshal_of_accepts _ _ (.diagData b hh ho hl)
  · intro ho hl; exact unmarshal_of_accepts _ _ (.nzs b hh ho hl)
  · intro ho hl; exact unmarshal_of_accepts _ _ (.sync b hh ho hl)
  · intro ho hl; exact unmarshal_of_accepts _ _ (.address b hh ho hl)
  · intro ho hl; exact unmarshal_of_accepts _ _ (.timeCode b hh ho hl)
  · intro ho hl; exact unmarshal_of_accepts _ _ (.trigger b hh ho hl)
  · intro ho hl; exact unmarshal_of_accepts _ _ (.ipProg b hh ho hl)
  · intro ho hl; exact unmarshal_of_accepts _ _ (.ipProgReply b hh ho hl)

example : (poll1.take 13).length < minSizeFor (.poll ArtPoll.new) := by decide
example : opOf (poll1.take 13) = opcodeFor (.poll ArtPoll.new) := by decide
example : HeaderOK poll1 ∧ opOf poll1 = opcodeFor (.poll ArtPoll.new) ∧
    sizeFor (.poll ArtPoll.new) ≤ poll1.length := by decide

/-! ### C09 -/

/-- C09: bytes appended to an accepted datagram change nothing. -/
theorem C09_trailing_irrelevant (b t : Bytes) (p : AnyPacket) (h : unmarshal b = .ok (some p, none)) :
    unmarshal (b ++ t) = .ok (some p, none) :=
  unmarshal_of_accepts _ _ (accepts_append t (accepts_of_unmarshal b p h))

example : unmarshal (dmx2 ++ [1, 2, 3]) = .ok (some (.dmx (dmxOf dmx2)), none) :=
  C09_trailing_irrelevant _ _ _ dmx2_accepted

/-! ### C14, C15 -/

/-- An ArtPollReply datagram from a node at 10.0.0.5 (port low byte first, style StNode). -/
def reply1 : Bytes := pollReplyImage
  { ArtPollReply.new with ipAddress := ⟨[10, 0, 0, 5], rfl⟩, port := 6454, numPorts := 1 }

/-- C14: an ArtPollReply is accepted iff it has 239 bytes, port bytes 36 19 or 19 36, and a style
below 7. No condition on the IP address bytes 10-13. -/
theorem C14_pollreply_acceptance (b : Bytes) (hm : b.take 8 = magic) (ho : opOf b = 0x2100) :
    (∃ p, unmarshal b = .ok (some p, none)) ↔
      239 ≤ b.length ∧
      ((byteAt b 14 = 0x36 ∧ byteAt b 15 = 0x19) ∨ (byteAt b 14 = 0x19 ∧ byteAt b 15 = 0x36)) ∧
      byteAt b 200 < 7 := by
  constructor
  · rintro ⟨p, hp⟩
    cases accepts_of_unmarshal b p hp with
    | pollReply _ _ h1 h2 h3 => exact ⟨h1, by simpa using h2, h3⟩
    | poll _ ho' => exact absurd (ho.symm.trans ho') (by decide)
    | diagData _ ho' => exact absurd (ho.symm.trans ho') (by decide)
    | command _ ho' => exact absurd (ho.symm.trans ho') (by decide)
    | dmx _ ho' => exact absurd (ho.symm.trans ho') (by decide)
    | nzs _ ho' => exact absurd (ho.symm.trans ho') (by decide)
    | sync _ ho' => exact absurd (ho.symm.trans ho') (by decide)
    | address _ ho' => exact absurd (ho.symm.trans ho') (by decide)
    | timeCode _ ho' => exact absurd (ho.symm.trans ho') (by decide)
    | trigger _ ho' => exact absurd (ho.symm.trans ho') (by decide)
    | ipProg _ ho' => exact absurd (ho.symm.trans ho') (by decide)
    | ipProgReply _ ho' => exact absurd (ho.symm.trans ho') (by decide)
  · rintro ⟨h1, h2, h3⟩
    exact ⟨_, unmarshal_of_accepts _ _
      (.pollReply b ⟨by omega, hm, Or.inl ho⟩ ho h1 (by simpa using h2) h3)⟩

example : reply1.take 8 = magic ∧ opOf reply1 = 0x2100 ∧ reply1.length = 239 ∧
    byteAt reply1 14 = 0x36 ∧ byteAt reply1 15 = 0x19 ∧ byteAt reply1 200 < 7 := by decide +kernel

/-- C15: an accepted ArtPollReply has Port 6454, and exchanging the two port bytes of the datagram
does not change the result. -/
theorem C15_port_normalised (b : Bytes) (p : ArtPollReply)
    (h : unmarshal b = .ok (some (.pollReply p), none)) :
    p.port = 6454 ∧
    ∀ b' : Bytes, b'.length = b.length → byteAt b' 14 = byteAt b 15 → byteAt b' 15 = byteAt b 14 →
      (∀ i, i ≠ 14 → i ≠ 15 → byteAt b' i = byteAt b i) →
      unmarshal b' = .ok (some (.pollReply p), none) := by
  have ha := accepts_of_unmarshal b _ h
  generalize hq : AnyPacket.pollReply p = q at ha
  cases ha with
  | pollReply hh ho hl hp hs =>
    injection hq with hq
    subst hq
    refine ⟨rfl, fun b' hl' h14 h15 he => ?_⟩
    have e12 : ∀ i, i < 12 → byteAt b i = byteAt b' i := fun i hi =>
      (he i (by omega) (by omega)).symm
    have heq : pollReplyOf b 6454 = pollReplyOf b' 6454 := by
      have hop := opOf_congr e12
      have by' (i : Nat) (h1 : i ≠ 14) (h2 : i ≠ 15) : byteAt b i = byteAt b' i := (he i h1 h2).symm
      have ar (o n : Nat) (h : 16 ≤ o ∨ o + n ≤ 14) : arrAt b o n = arrAt b' o n :=
        arrAt_congr fun j hj => by' _ (by omega) (by omega)
      have be (o : Nat) (h : 16 ≤ o) : be16At b o = be16At b' o :=
        be16At_congr (by' _ (by omega) (by omega)) (by' _ (by omega) (by omega))
      simp only [pollReplyOf]
      rw [ar 0 8 (by omega), hop, ar 10 4 (by omega), be 16 (by omega), be 20 (by omega),
        be 172 (by omega), ar 24 2 (by omega), ar 26 18 (by omega), ar 44 64 (by omega),
        ar 108 64 (by omega), ar 174 4 (by omega), ar 178 4 (by omega), ar 182 4 (by omega),
        ar 186 4 (by omega), ar 190 4 (by omega), ar 201 6 (by omega), ar 207 4 (by omega),
        by' 18 (by omega) (by omega), by' 19 (by omega) (by omega), by' 22 (by omega) (by omega),
        by' 23 (by omega) (by omega), by' 194 (by omega) (by omega), by' 195 (by omega) (by omega),
        by' 196 (by omega) (by omega), by' 200 (by omega) (by omega), by' 211 (by omega) (by omega),
        by' 212 (by omega) (by omega)]
    rw [heq]
    refine unmarshal_of_accepts _ _ (.pollReply b' ?_ (opOf_congr e12 ▸ ho) (by omega) ?_
      (by rw [he 200 (by omega) (by omega)]; exact hs))
    · refine ⟨by omega, ?_, Or.inl (opOf_congr e12 ▸ ho)⟩
      rw [← arrAt_val_take b' 8 (by omega), ← arrAt_congr (b := b) fun j hj => e12 _ (by omega),
        arrAt_val_take b 8 (by omega)]
      exact hh.2.1
    · rw [h14, h15]
      simpa [and_comm, or_comm] using hp
  | poll => simp at hq
  | diagData => simp at hq
  | command => simp at hq
  | dmx => simp at hq
  | nzs => simp at hq
  | sync => simp at hq
  | address => simp at hq
  | timeCode => simp at hq
  | trigger => simp at hq
  | ipProg => simp at hq
  | ipProgReply => simp at hq

theorem reply1_accepted : unmarshal reply1 = .ok (some (.pollReply (pollReplyOf reply1 6454)), none) :=
  unmarshal_of_accepts _ _ (.pollReply _ (by decide +kernel) (by decide +kernel) (by decide +kernel)
    (by decide +kernel) (by decide +kernel))

example : unmarshal ((reply1.set 14 0x19).set 15 0x36) = unmarshal reply1 := by
  rw [reply1_accepted]
  refine (C15_port_normalised reply1 _ reply1_accepted).2 _ (by simp) (by decide +kernel)
    (by decide +kernel) ?_
  intro i h1 h2
  simp [byteAt, Ne.symm h1, Ne.symm h2]

/-! ### C17 -/

/-- C17: every ArtCommand sent carries ff ff at offsets 12-13, and a datagram with opcode OpCommand
and a good header is accepted iff it has 528 bytes and carries ff ff there. -/
theorem C17_command_esta :
    (∀ p : ArtCommand, byteAt (p.marshalBinary).2.1 12 = 0xff ∧ byteAt (p.marshalBinary).2.1 13 = 0xff) ∧
    (∀ b : Bytes, HeaderOK b → opOf b = 0x2400 →
      ((∃ p, unmarshal b = .ok (some p, none)) ↔
        528 ≤ b.length ∧ byteAt b 12 = 0xff ∧ byteAt b 13 = 0xff)) := by
  constructor
  · intro p
    have h4 := ArtCommand.write_of p.finish _ (ArtCommand.finish_hdr p)
    have h5 := (esta_iff _).mp (congrArg ArtCommand.estaManufacturer h4)
    rw [ArtCommand.marshal_eq]
    simpa using h5
  · intro b hh ho
    constructor
    · rintro ⟨p, hp⟩
      cases accepts_of_unmarshal b p hp with
      | command _ _ h1 h2 => exact ⟨h1, by simpa using h2⟩
      | poll _ ho' => exact absurd (ho.symm.trans ho') (by decide)
      | pollReply _ ho' => exact absurd (ho.symm.trans ho') (by decide)
      | diagData _ ho' => exact absurd (ho.symm.trans ho') (by decide)
      | dmx _ ho' => exact absurd (ho.symm.trans ho') (by decide)
      | nzs _ ho' => exact absurd (ho.symm.trans ho') (by decide)
      | sync _ ho' => exact absurd (ho.symm.trans ho') (by decide)
      | address _ ho' => exact absurd (ho.symm.trans ho') (by decide)
      | timeCode _ ho' => exact absurd (ho.symm.trans ho') (by decide)
      | trigger _ ho' => exact absurd (ho.symm.trans ho') (by decide)
      | ipProg _ ho' => exact absurd (ho.symm.trans ho') (by decide)
      | ipProgReply _ ho' => exact absurd (ho.symm.trans ho') (by decide)
    · rintro ⟨h1, h2, h3⟩
      exact ⟨_, unmarshal_of_accepts _ _ (.command b hh ho h1 (by simp [h2, h3]))⟩

example : HeaderOK (header 0x2400) ∧ opOf (header 0x2400) = 0x2400 := by decide

/-! ### C18 -/

/-- C18: padding is transmitted as zero (whatever the packet holds) and ignored on receipt: two
datagrams of equal length that differ only at padding positions give the same result, error or not. -/
theorem C18_padding :
    (∀ (p : AnyPacket) (i : Nat), i ∈ padFor (opcodeFor p) → byteAt (p.marshalBinary).2.1 i = 0) ∧
    (∀ b b' : Bytes, b.length = b'.length →
      (∀ i, i ∉ padFor (opOf b) → byteAt b i = byteAt b' i) → unmarshal b = unmarshal b') := by
  refine ⟨fun p i hi => marshal_pad_zero p i hi, unmarshal_pad⟩

example : (13 : Nat) ∈ padFor (opcodeFor (.sync ArtSync.new)) := by decide
example : ∀ i, i ∉ padFor (opOf (syncImage ArtSync.new)) →
    byteAt (syncImage ArtSync.new) i = byteAt ((syncImage ArtSync.new).set 13 0xaa) i := by
  intro i hi
  have : i ≠ 13 := by intro hc; subst hc; exact hi (by decide)
  simp [byteAt, Ne.symm this]

/-! ### C19 -/

/-- C19 as stated. -/
def C19_statement : Prop :=
  ∀ (p : AnyPacket) (b : Bytes), opOf b ≠ opcodeFor p ∨ b.take 8 ≠ magic →
    ∃ q e, p.unmarshalBinary b = .ok (q, some e)

/-- C19 is false of the code: ArtDMX.UnmarshalBinary does not look at the opcode. An ArtNzs datagram
is accepted as ArtDMX. -/
theorem C19_dmx_accepts_nzs : ∃ q, (AnyPacket.dmx ArtDMX.new).unmarshalBinary (dmx2.set 9 0x51) =
    .ok (q, none) ∧ opOf (dmx2.set 9 0x51) = 0x5100 := by
  exact ⟨_, dmx_any_of (ArtDMX.unmarshal_ok ArtDMX.new (dmx2.set 9 0x51) (by decide) (by decide)
    (by decide) (by decide)), by decide⟩

/-- ArtPollReply.UnmarshalBinary does not look at the identification. -/
theorem C19_pollreply_ignores_magic : ∃ q,
    (AnyPacket.pollReply ArtPollReply.new).unmarshalBinary (reply1.set 0 0x58) = .ok (q, none) ∧
    (reply1.set 0 0x58).take 8 ≠ magic := by
  refine ⟨.pollReply (pollReplyOf (reply1.set 0 0x58) 6454), ?_, by decide +kernel⟩
  have h := ArtPollReply.unmarshal_eq ArtPollReply.new (reply1.set 0 0x58) (by decide +kernel)
  rw [if_neg (by decide +kernel), if_neg (by decide +kernel), if_neg (by decide +kernel)] at h
  simp only [AnyPacket.unmarshalBinary, h]

theorem C19_false : ¬ C19_statement := by
  intro h
  obtain ⟨q, h1, h2⟩ := C19_dmx_accepts_nzs
  obtain ⟨q', e, h3⟩ := h (.dmx ArtDMX.new) (dmx2.set 9 0x51) (Or.inl (by rw [h2]; decide))
  rw [h1] at h3
  simp at h3

/-- C19, the part that holds: every type but ArtDMX rejects a foreign opcode, and every type but
ArtPollReply rejects a foreign identification. -/
theorem C19_partial (p : AnyPacket) (b : Bytes)
    (h : (opOf b ≠ opcodeFor p ∧ ∀ d, p ≠ .dmx d) ∨ (b.take 8 ≠ magic ∧ ∀ r, p ≠ .pollReply r)) :
    ∃ q e, p.unmarshalBinary b = .ok (q, some e) := by
  have hdr (hl : 8 ≤ b.length) (hm : b.take 8 ≠ magic) : ¬ HdrOK b := fun hk =>
    hm (by rw [← arrAt_val_take b 8 hl]; exact (artNet_magic b).mp hk.1)
  have short (hl : b.length < minSizeFor p) : ∃ q e, p.unmarshalBinary b = .ok (q, some e) := by
    obtain ⟨e, he⟩ := (C08_truncated_rejected b).1 p hl
    exact ⟨_, _, he⟩
  by_cases hl : b.length < minSizeFor p
  · exact short hl
  have fin {α : Type} (f : α → AnyPacket) (r : α × Option Err) (hr : r.2 ≠ none) :
      ∃ q e, (Except.ok (f r.1, r.2) : Go (AnyPacket × Option Err)) = .ok (q, some e) := by
    obtain ⟨a, e⟩ := r
    cases e with
    | none => exact absurd rfl hr
    | some e => exact ⟨_, _, rfl⟩
  cases p with
  | dmx p =>
    rcases h with ⟨_, h⟩ | ⟨h, _⟩
    · exact absurd rfl (h p)
    · simp only [minSizeFor] at hl
      have he := ArtDMX.unmarshal_eq p b (by omega)
      rw [header_validate_eq] at he
      have hm : arrAt b 0 8 ≠ artNet := fun hc => h (by
        rw [← arrAt_val_take b 8 (by omega)]; exact (artNet_magic b).mp hc)
      rw [if_pos hm] at he
      exact ⟨_, _, by simp only [AnyPacket.unmarshalBinary, he, bind, Except.bind]; rfl⟩
  | pollReply p =>
    rcases h with ⟨h, _⟩ | ⟨_, h⟩
    · simp only [minSizeFor, sizeFor] at hl
      have he := ArtPollReply.unmarshal_eq p b (by omega)
      rw [if_pos (show opOf b ≠ OpCode.opPollReply from h)] at he
      exact ⟨_, _, by simp only [AnyPacket.unmarshalBinary, he]; rfl⟩
    · exact absurd rfl (h p)
  | command p =>
    simp only [minSizeFor, sizeFor] at hl
    refine fin .command (p.unmarshalBinary b) fun hn => ?_
    obtain ⟨h1, h2, _⟩ := (ArtCommand.unmarshal_iff p b (by omega)).1.mp hn
    rcases h with ⟨h, _⟩ | ⟨h, _⟩
    · exact h h2
    · exact hdr (by omega) h h1
  | poll p =>
    simp only [minSizeFor, sizeFor] at hl
    refine fin .poll (p.unmarshalBinary b) fun hn => ?_
    obtain ⟨h1, h2⟩ := (ArtPoll.unmarshal_iff p b (by omega)).1.mp hn
    rcases h with ⟨h, _⟩ | ⟨h, _⟩
    · exact h h2
    · exact hdr (by omega) h h1
  | diagData p =>
    simp only [minSizeFor, sizeFor] at hl
    refine fin .diagData (p.unmarshalBinary b) fun hn => ?_
    obtain ⟨h1, h2⟩ := (ArtDiagData.unmarshal_iff p b (by omega)).1.mp hn
    rcases h with ⟨h, _⟩ | ⟨h, _⟩
    · exact h h2
    · exact hdr (by omega) h h1
  | nzs p =>
    simp only [minSizeFor, sizeFor] at hl
    refine fin .nzs (p.unmarshalBinary b) fun hn => ?_
    obtain ⟨h1, h2⟩ := (ArtNzs.unmarshal_iff p b (by omega)).1.mp hn
    rcases h with ⟨h, _⟩ | ⟨h, _⟩
    · exact h h2
    · exact hdr (by omega) h h1
  | sync p =>
    simp only [minSizeFor, sizeFor] at hl
    refine fin .sync (p.unmarshalBinary b) fun hn => ?_
    obtain ⟨h1, h2⟩ := (ArtSync.unmarshal_iff p b (by omega)).1.mp hn
    rcases h with ⟨h, _⟩ | ⟨h, _⟩
    · exact h h2
    · exact hdr (by omega) h h1
  | address p =>
    simp only [minSizeFor, sizeFor] at hl
    refine fin .address (p.unmarshalBinary b) fun hn => ?_
    obtain ⟨h1, h2⟩ := (ArtAddress.unmarshal_iff p b (by omega)).1.mp hn
    rcases h with ⟨h, _⟩ | ⟨h, _⟩
    · exact h h2
    · exact hdr (by omega) h h1
  | timeCode p =>
    simp only [minSizeFor, sizeFor] at hl
    refine fin .timeCode (p.unmarshalBinary b) fun hn => ?_
    obtain ⟨h1, h2⟩ := (ArtTimeCode.unmarshal_iff p b (by omega)).1.mp hn
    rcases h with ⟨h, _⟩ | ⟨h, _⟩
    · exact h h2
    · exact hdr (by omega) h h1
  | trigger p =>
    simp only [minSizeFor, sizeFor] at hl
    refine fin .trigger (p.unmarshalBinary b) fun hn => ?_
    obtain ⟨h1, h2⟩ := (ArtTrigger.unmarshal_iff p b (by omega)).1.mp hn
    rcases h with ⟨h, _⟩ | ⟨h, _⟩
    · exact h h2
    · exact hdr (by omega) h h1
  | ipProg p =>
    simp only [minSizeFor, sizeFor] at hl
    refine fin .ipProg (p.unmarshalBinary b) fun hn => ?_
    obtain ⟨h1, h2⟩ := (ArtIPProg.unmarshal_iff p b (by omega)).1.mp hn
    rcases h with ⟨h, _⟩ | ⟨h, _⟩
    · exact h h2
    · exact hdr (by omega) h h1
  | ipProgReply p =>
    simp only [minSizeFor, sizeFor] at hl
    refine fin .ipProgReply (p.unmarshalBinary b) fun hn => ?_
    obtain ⟨h1, h2⟩ := (ArtIPProgReply.unmarshal_iff p b (by omega)).1.mp hn
    rcases h with ⟨h, _⟩ | ⟨h, _⟩
    · exact h h2
    · exact hdr (by omega) h h1

example : opOf dmx2 ≠ opcodeFor (.poll ArtPoll.new) ∧ ∀ d, AnyPacket.poll ArtPoll.new ≠ .dmx d :=
  ⟨by decide, by simp⟩

/-! ### C20 -/

/-- C20 as stated. -/
def C20_statement : Prop :=
  ∀ (p q r : AnyPacket) (b : Bytes), opcodeFor p = opcodeFor q →
    p.unmarshalBinary b = .ok (r, none) → q.unmarshalBinary b = .ok (r, none)

/-- An ArtDMX object whose channels are all 0xff. -/
def staleDMX : ArtDMX := { ArtDMX.new with data := ⟨List.replicate 512 0xff, List.length_replicate⟩ }

/-- C20 is false of the code: decoding a two-channel frame into a used ArtDMX object leaves channel 3
at its old value. -/
theorem C20_dmx_stale_tail :
    ∃ r s : ArtDMX, ArtDMX.new.unmarshalBinary dmx2 = .ok (r, none) ∧
      staleDMX.unmarshalBinary dmx2 = .ok (s, none) ∧ r.data.get 2 = 0 ∧ s.data.get 2 = 0xff := by
  have h1 := ArtDMX.unmarshal_ok ArtDMX.new dmx2 (by decide) (by decide) (by decide) (by decide)
  have h2 := ArtDMX.unmarshal_ok staleDMX dmx2 (by decide) (by decide) (by decide) (by decide)
  refine ⟨_, _, h1, h2, ?_, ?_⟩
  · rw [arr_ofFn_get]; decide +kernel
  · rw [arr_ofFn_get]; decide +kernel

theorem C20_false : ¬ C20_statement := by
  intro h
  obtain ⟨r, s, h1, h2, h3, h4⟩ := C20_dmx_stale_tail
  have h5 := h (.dmx ArtDMX.new) (.dmx staleDMX) (.dmx r) dmx2 rfl
    (by simp only [AnyPacket.unmarshalBinary, h1, bind, Except.bind]; rfl)
  simp only [AnyPacket.unmarshalBinary, h2, bind, Except.bind, pure, Except.pure] at h5
  injection h5 with h5
  injection h5 with h5 _
  injection h5 with h5
  rw [h5, h3] at h4
  exact absurd h4 (by decide)

/-- C20, the part that holds: for the eleven fixed-layout types a successful UnmarshalBinary depends
on the datagram alone. For ArtDMX (opcode other than 0x0021) the same is true of everything but the
channels at and beyond the length field, which keep their old values. -/
theorem C20_partial :
    (∀ (p q r : AnyPacket) (b : Bytes), opcodeFor p = opcodeFor q → (∀ d, p ≠ .dmx d) →
      p.unmarshalBinary b = .ok (r, none) → q.unmarshalBinary b = .ok (r, none)) ∧
    (∀ (p r : ArtDMX) (b : Bytes), opOf b ≠ 0x0021 → p.unmarshalBinary b = .ok (r, none) →
      ∃ d, r = { dmxOf b with data := d } ∧
        ∀ i : Fin 512, d.get i = if i.val < (be16At b 16).toNat then byteAt b (18 + i) else p.data.get i) := by
  constructor
  · intro p q r b hk hnd hp
    have hl : minSizeFor p ≤ b.length := by
      by_cases hl : b.length < minSizeFor p
      · obtain ⟨e, he⟩ := (C08_truncated_rejected b).1 p hl
        rw [he] at hp; simp at hp
      · omega
    cases p with
    | dmx d => exact absurd rfl (hnd d)
    | poll p =>
      cases q with
      | poll q =>
        rw [← hp]
        simp only [AnyPacket.unmarshalBinary]
        have h1 : p.unmarshalBinary b = _ := unmarshalPacket_long p b hl
        have h2 : q.unmarshalBinary b = _ := unmarshalPacket_long q b hl
        rw [h1, h2]
      | _ => exact absurd hk (by simp [opcodeFor])
    | pollReply p =>
      cases q with
      | pollReply q =>
        rw [← hp]
        simp only [AnyPacket.unmarshalBinary]
        have h1 : p.unmarshalBinary b = _ := unmarshalPacket_long p b hl
        have h2 : q.unmarshalBinary b = _ := unmarshalPacket_long q b hl
        rw [h1, h2]
      | _ => exact absurd hk (by simp [opcodeFor])
    | diagData p =>
      cases q with
      | diagData q =>
        rw [← hp]
        simp only [AnyPacket.unmarshalBinary]
        have h1 : p.unmarshalBinary b = _ := unmarshalPacket_long p b hl
        have h2 : q.unmarshalBinary b = _ := unmarshalPacket_long q b hl
        rw [h1, h2]
      | _ => exact absurd hk (by simp [opcodeFor])
    | command p =>
      cases q with
      | command q =>
        rw [← hp]
        simp only [AnyPacket.unmarshalBinary]
        have h1 : p.unmarshalBinary b = _ := unmarshalPacket_long p b hl
        have h2 : q.unmarshalBinary b = _ := unmarshalPacket_long q b hl
        rw [h1, h2]
      | _ => exact absurd hk (by simp [opcodeFor])
    | nzs p =>
      cases q with
      | nzs q =>
        rw [← hp]
        simp only [AnyPacket.unmarshalBinary]
        have h1 : p.unmarshalBinary b = _ := unmarshalPacket_long p b hl
        have h2 : q.unmarshalBinary b = _ := unmarshalPacket_long q b hl
        rw [h1, h2]
      | _ => exact absurd hk (by simp [opcodeFor])
    | sync p =>
      cases q with
      | sync q =>
        rw [← hp]
        simp only [AnyPacket.unmarshalBinary]
        have h1 : p.unmarshalBinary b = _ := unmarshalPacket_long p b hl
        have h2 : q.unmarshalBinary b = _ := unmarshalPacket_long q b hl
        rw [h1, h2]
      | _ => exact absurd hk (by simp [opcodeFor])
    | address p =>
      cases q with
      | address q =>
        rw [← hp]
        simp only [AnyPacket.unmarshalBinary]
        have h1 : p.unmarshalBinary b = _ := unmarshalPacket_long p b hl
        have h2 : q.unmarshalBinary b = _ := unmarshalPacket_long q b hl
        rw [h1, h2]
      | _ => exact absurd hk (by simp [opcodeFor])
    | timeCode p =>
      cases q with
      | timeCode q =>
        rw [← hp]
        simp only [AnyPacket.unmarshalBinary]
        have h1 : p.unmarshalBinary b = _ := unmarshalPacket_long p b hl
        have h2 : q.unmarshalBinary b = _ := unmarshalPacket_long q b hl
        rw [h1, h2]
      | _ => exact absurd hk (by simp [opcodeFor])
    | trigger p =>
      cases q with
      | trigger q =>
        rw [← hp]
        simp only [AnyPacket.unmarshalBinary]
        have h1 : p.unmarshalBinary b = _ := unmarshalPacket_long p b hl
        have h2 : q.unmarshalBinary b = _ := unmarshalPacket_long q b hl
        rw [h1, h2]
      | _ => exact absurd hk (by simp [opcodeFor])
    | ipProg p =>
      cases q with
      | ipProg q =>
        rw [← hp]
        simp only [AnyPacket.unmarshalBinary]
        have h1 : p.unmarshalBinary b = _ := unmarshalPacket_long p b hl
        have h2 : q.unmarshalBinary b = _ := unmarshalPacket_long q b hl
        rw [h1, h2]
      | _ => exact absurd hk (by simp [opcodeFor])
    | ipProgReply p =>
      cases q with
      | ipProgReply q =>
        rw [← hp]
        simp only [AnyPacket.unmarshalBinary]
        have h1 : p.unmarshalBinary b = _ := unmarshalPacket_long p b hl
        have h2 : q.unmarshalBinary b = _ := unmarshalPacket_long q b hl
        rw [h1, h2]
      | _ => exact absurd hk (by simp [opcodeFor])
  · intro p r b hne hp
    by_cases hl : b.length < 18
    · rw [ArtDMX.unmarshal_short p b hl] at hp; simp at hp
    · rw [ArtDMX.unmarshal_eq p b (by omega),
        if_pos (fun hc => hne ((be16_pollReply_iff b).mp hc))] at hp
      by_cases hk : HdrOK b
      · rw [(header_validate_ok b).2 hk] at hp
        simp only at hp
        split at hp
        · injection hp with hp
          injection hp with hp _
          subst hp
          refine ⟨_, rfl, fun i => ?_⟩
          exact arr_ofFn_get _ i
        · injection hp with hp; simp at hp
      · obtain ⟨hd, e, he⟩ := header_validate_bad b hk
        rw [he] at hp
        simp only at hp
        injection hp with hp; simp at hp

example : opOf dmx2 ≠ 0x0021 ∧ ∃ r, staleDMX.unmarshalBinary dmx2 = .ok (r, none) := by
  obtain ⟨_, s, _, h, _⟩ := C20_dmx_stale_tail
  exact ⟨by decide, s, h⟩
example : ∃ r, (AnyPacket.poll { ArtPoll.new with talkToMe := 9 }).unmarshalBinary poll1 = .ok (r, none) :=
  ⟨_, by simp only [AnyPacket.unmarshalBinary]
         rw [(ArtPoll.unmarshal_iff _ poll1 (by decide)).2 (by decide)]⟩

/-! ### C21 -/

/-- The protocol version of a datagram: bytes 10-11, high byte first. -/
def versionOf (b : Bytes) : UInt16 := be16At b 10

/-- C21 as stated: below 14 nothing but an ArtPollReply is accepted; from 14 on the version is never
the reason of a rejection. -/
def C21_statement : Prop :=
  (∀ b p, opOf b ≠ 0x2100 → (versionOf b).toNat < 14 → unmarshal b ≠ .ok (some p, none)) ∧
  (∀ b v, 14 ≤ (versionOf b).toNat → unmarshal b ≠ .ok (none, some (.incompatibleVersion v)))

/-- C21 is false of the code: version 256 is rejected as incompatible (only the low byte is read). -/
theorem C21_false : ¬ C21_statement := by
  intro h
  refine h.2 ((poll1.set 10 1).set 11 0) 0 (by decide) ?_
  rfl

/-- C21, the part that holds: no accepted datagram other than ArtPollReply has a version below 14;
and a version whose low byte is at least 14 is never the reason of a rejection, opcode 0x0021
excepted. Missing: versions such as 256, whose low byte is below 14. -/
theorem C21_partial :
    (∀ b p, opOf b ≠ 0x2100 → (versionOf b).toNat < 14 → unmarshal b ≠ .ok (some p, none)) ∧
    (∀ b v, 14 ≤ (versionOf b).toNat % 256 → opOf b ≠ 0x0021 →
      unmarshal b ≠ .ok (none, some (.incompatibleVersion v))) := by
  have hver (b : Bytes) : (versionOf b).toNat = 256 * (byteAt b 10).toNat + (byteAt b 11).toNat := by
    have h1 := (byteAt b 10).toNat_lt
    have h2 := (byteAt b 11).toNat_lt
    show (UInt16.ofNat (256 * (byteAt b 10).toNat + (byteAt b 11).toNat)).toNat = _
    rw [UInt16.toNat_ofNat']
    omega
  constructor
  · intro b p ho hv hu
    rcases ((C05_header_gate b).1 p hu).2.2 with h | h
    · exact ho h
    · have : (14 : UInt8).toNat ≤ (byteAt b 11).toNat := h
      rw [hver b] at hv
      simp only [UInt8.reduceToNat] at this
      omega
  · intro b v hv hne hu
    by_cases hs : b.length < 12
    · rw [unmarshal_short b hs] at hu; simp at hu
    have h12 : 12 ≤ b.length := by omega
    by_cases hm : arrAt b 0 8 = artNet
    · have hlow : 14 ≤ byteAt b 11 := by
        have h2 := (byteAt b 11).toNat_lt
        rw [hver b] at hv
        show (14 : UInt8).toNat ≤ (byteAt b 11).toNat
        simp only [UInt8.reduceToNat]
        omega
      have hg : GateOK b := hdrOK_gate ⟨hm, fun _ => hlow⟩ hne
      rw [unmarshal_gate b h12 hg] at hu
      have hc := dispatch_classify (opOf b)
      cases hd : dispatch (opOf b) with
      | error e =>
        rw [hd] at hu hc
        simp only at hu
        injection hu with hu
        injection hu with _ hu
        injection hu with hu
        subst hu
        rcases hc with ⟨_, he⟩ | ⟨_, he⟩ | ⟨_, _, he⟩ | ⟨_, _, he, _⟩ <;> simp at he
      | ok p =>
        rw [hd] at hu
        obtain ⟨⟨r, e⟩, hr⟩ := (C04_unmarshal_never_panics b).2 p
        simp only [hr] at hu
        injection hu with hu
        simp at hu
    · rw [unmarshal_magic b h12 hm] at hu; simp at hu

example : 14 ≤ (versionOf poll1).toNat % 256 ∧ opOf poll1 ≠ 0x0021 := by decide
example : opOf (poll1.set 11 13) ≠ 0x2100 ∧ (versionOf (poll1.set 11 13)).toNat < 14 := by decide

/-! ### C22 -/

/-- C22 as stated. -/
def C22_statement : Prop := ∀ b p e, unmarshal b = .ok (p, some e) → p = none

/-- C22 is false of the code: a truncated ArtPoll yields an error together with a zero packet. -/
theorem C22_false : ¬ C22_statement := by
  intro h
  have h1 : unmarshal (poll1.take 13) = .ok (some (.poll ArtPoll.new), some (.read .unexpectedEOF)) := by
    rw [unmarshal_poll _ (by decide) (by decide) (by decide), if_pos (by decide)]
  have := h _ _ _ h1
  simp at this

/-- C22, the part that holds: a failure of the header check or of the dispatch yields no packet. The
errors that do come with a packet are those of the decoder of an implemented opcode. -/
theorem C22_partial (b : Bytes) (p : Option AnyPacket) (e : Err) (h : unmarshal b = .ok (p, some e))
    (hb : ¬ HeaderOK b ∨ ∀ q, opcodeFor q ≠ opOf b) : p = none := by
  by_cases hs : b.length < 12
  · rw [unmarshal_short b hs] at h
    injection h with h; injection h with h _; exact h.symm
  have h12 : 12 ≤ b.length := by omega
  by_cases hg : GateOK b
  · rcases hb with hb | hb
    · exact absurd ((headerOK_iff b).mpr ⟨h12, (gate_hdrOK hg).1⟩) hb
    · rw [unmarshal_gate b h12 hg] at h
      have hc := dispatch_classify (opOf b)
      cases hd : dispatch (opOf b) with
      | error e =>
        rw [hd] at h
        injection h with h; injection h with h _; exact h.symm
      | ok q =>
        rw [hd] at hc
        rcases hc with ⟨_, he⟩ | ⟨_, he⟩ | ⟨_, _, he⟩ | ⟨_, r, he, hr⟩
        · simp at he
        · simp at he
        · simp at he
        · exact absurd hr (hb r)
  · obtain ⟨e', he⟩ := unmarshal_nogate b h12 hg
    rw [he] at h
    injection h with h; injection h with h _; exact h.symm

example : ¬ HeaderOK (poll1.set 0 0) ∧ unmarshal (poll1.set 0 0) = .ok (none, some .invalidPacket) :=
  ⟨by decide, by rfl⟩

end Verif.Props
