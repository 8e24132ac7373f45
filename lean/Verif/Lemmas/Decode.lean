import Verif.Lemmas.Header
import Verif.Lemmas.Finite
/-
Helper lemmas: every UnmarshalBinary, and Unmarshal, in terms of absolute offsets.
-/
namespace Verif
open Spec Packet Code

theorem header_validate_eq (b : Bytes) (v : Arr 2) :
    Header.validate ⟨arrAt b 0 8, be16At b 8, v⟩ =
      if arrAt b 0 8 ≠ artNet then (⟨arrAt b 0 8, be16At b 8, v⟩, some .invalidPacket)
      else if opOf b ≠ OpCode.opPollReply ∧ v.get 1 < 14 then
        (⟨arrAt b 0 8, opOf b, v⟩, some (.incompatibleVersion (v.get 1)))
      else (⟨arrAt b 0 8, opOf b, v⟩, none) := by
  simp only [Header.validate, Header.swapOpCode, swap_be16At, opOf]
  have hv : Version.bytes.get 1 = 14 := rfl
  rw [hv]
  by_cases h1 : arrAt b 0 8 = artNet <;> by_cases h2 : le16At b 8 = OpCode.opPollReply <;>
    by_cases h3 : v.get 1 < 14 <;> simp [h1, h2, h3]

/-- What the header check of a fixed-layout decoder demands of the bytes. -/
def HdrOK (b : Bytes) : Prop :=
  arrAt b 0 8 = artNet ∧ (opOf b ≠ OpCode.opPollReply → 14 ≤ byteAt b 11)

instance (b : Bytes) : Decidable (HdrOK b) := by unfold HdrOK; infer_instance

theorem header_validate_ok (b : Bytes) :
    ((Header.validate ⟨arrAt b 0 8, be16At b 8, arrAt b 10 2⟩).2 = none ↔ HdrOK b) ∧
    (HdrOK b → Header.validate ⟨arrAt b 0 8, be16At b 8, arrAt b 10 2⟩ = (hdrOf b, none)) := by
  rw [header_validate_eq]
  have hg : (arrAt b 10 2).get 1 = byteAt b 11 := rfl
  rw [hg]
  by_cases h1 : arrAt b 0 8 = artNet <;> by_cases h2 : opOf b = OpCode.opPollReply <;>
    by_cases h3 : byteAt b 11 < 14 <;>
    simp [h1, h2, h3, HdrOK, hdrOf] <;> simpa using h3

theorem header_validate_bad (b : Bytes) (h : ¬ HdrOK b) :
    ∃ hd e, Header.validate ⟨arrAt b 0 8, be16At b 8, arrAt b 10 2⟩ = (hd, some e) := by
  have h1 := (header_validate_ok b).1
  generalize Header.validate ⟨arrAt b 0 8, be16At b 8, arrAt b 10 2⟩ = r at h1
  obtain ⟨hd, e⟩ := r
  cases e with
  | none => exact absurd (h1.mp rfl) h
  | some e => exact ⟨hd, e, rfl⟩

theorem unmarshalPacket_short {α : Type} [ArtNetPacket α] (p : α) (b : Bytes)
    (h : b.length < wireSize α) :
    unmarshalPacket p b = (p, some (.read (if b.isEmpty then .eof else .unexpectedEOF))) := by
  simp [unmarshalPacket, binaryRead_short p b h]

theorem unmarshalPacket_long {α : Type} [ArtNetPacket α] (p : α) (b : Bytes)
    (h : wireSize α ≤ b.length) :
    unmarshalPacket p b =
      ArtNetPacket.validate (GoStruct.ofVals (α := α) (readVals b 0 (GoStruct.layout α))) := by
  simp [unmarshalPacket, binaryRead_long p b h]

/-! #### ArtPoll -/

theorem ArtPoll.wireSize_eq : wireSize ArtPoll = 14 := rfl

theorem ArtPoll.read_eq (b : Bytes) :
    GoStruct.ofVals (α := ArtPoll) (readVals b 0 (GoStruct.layout ArtPoll)) =
      { pollOf b with hdr := ⟨arrAt b 0 8, be16At b 8, arrAt b 10 2⟩ } := by
  simp only [pollOf, ← getBE16_be]; rfl

theorem ArtPoll.unmarshal_iff (p : ArtPoll) (b : Bytes) (h : 14 ≤ b.length) :
    ((p.unmarshalBinary b).2 = none ↔ HdrOK b ∧ opOf b = OpCode.opPoll) ∧
    (HdrOK b ∧ opOf b = OpCode.opPoll → p.unmarshalBinary b = (pollOf b, none)) := by
  have hl : p.unmarshalBinary b = ArtPoll.validate _ := unmarshalPacket_long p b h
  rw [hl, ArtPoll.read_eq]
  by_cases hk : HdrOK b
  · simp only [ArtPoll.validate, (header_validate_ok b).2 hk]
    have : (hdrOf b).opCode = opOf b := rfl
    by_cases ho : opOf b = OpCode.opPoll <;> simp [this, ho, hk]
    rfl
  · obtain ⟨hd, e, he⟩ := header_validate_bad b hk
    simp [ArtPoll.validate, he, hk]

/-! #### ArtDiagData -/

theorem ArtDiagData.wireSize_eq : wireSize ArtDiagData = 530 := rfl

theorem ArtDiagData.read_eq (b : Bytes) :
    GoStruct.ofVals (α := ArtDiagData) (readVals b 0 (GoStruct.layout ArtDiagData)) =
      { diagDataOf b with hdr := ⟨arrAt b 0 8, be16At b 8, arrAt b 10 2⟩ } := by
  simp only [diagDataOf, ← getBE16_be]; rfl

theorem ArtDiagData.unmarshal_iff (p : ArtDiagData) (b : Bytes) (h : 530 ≤ b.length) :
    ((p.unmarshalBinary b).2 = none ↔ HdrOK b ∧ opOf b = OpCode.opDiagData) ∧
    (HdrOK b ∧ opOf b = OpCode.opDiagData → p.unmarshalBinary b = (diagDataOf b, none)) := by
  have hl : p.unmarshalBinary b = ArtDiagData.validate _ := unmarshalPacket_long p b h
  rw [hl, ArtDiagData.read_eq]
  by_cases hk : HdrOK b
  · simp only [ArtDiagData.validate, (header_validate_ok b).2 hk]
    have : (hdrOf b).opCode = opOf b := rfl
    by_cases ho : opOf b = OpCode.opDiagData <;> simp [this, ho, hk]
    rfl
  · obtain ⟨hd, e, he⟩ := header_validate_bad b hk
    simp [ArtDiagData.validate, he, hk]

/-! #### ArtNzs -/

theorem ArtNzs.wireSize_eq : wireSize ArtNzs = 530 := rfl

theorem ArtNzs.read_eq (b : Bytes) :
    GoStruct.ofVals (α := ArtNzs) (readVals b 0 (GoStruct.layout ArtNzs)) =
      { nzsOf b with hdr := ⟨arrAt b 0 8, be16At b 8, arrAt b 10 2⟩ } := by
  simp only [nzsOf, ← getBE16_be]; rfl

theorem ArtNzs.unmarshal_iff (p : ArtNzs) (b : Bytes) (h : 530 ≤ b.length) :
    ((p.unmarshalBinary b).2 = none ↔ HdrOK b ∧ opOf b = OpCode.opNzs) ∧
    (HdrOK b ∧ opOf b = OpCode.opNzs → p.unmarshalBinary b = (nzsOf b, none)) := by
  have hl : p.unmarshalBinary b = ArtNzs.validate _ := unmarshalPacket_long p b h
  rw [hl, ArtNzs.read_eq]
  by_cases hk : HdrOK b
  · simp only [ArtNzs.validate, (header_validate_ok b).2 hk]
    have : (hdrOf b).opCode = opOf b := rfl
    by_cases ho : opOf b = OpCode.opNzs <;> simp [this, ho, hk]
    rfl
  · obtain ⟨hd, e, he⟩ := header_validate_bad b hk
    simp [ArtNzs.validate, he, hk]

/-! #### ArtSync -/

theorem ArtSync.wireSize_eq : wireSize ArtSync = 14 := rfl

theorem ArtSync.read_eq (b : Bytes) :
    GoStruct.ofVals (α := ArtSync) (readVals b 0 (GoStruct.layout ArtSync)) =
      { syncOf b with hdr := ⟨arrAt b 0 8, be16At b 8, arrAt b 10 2⟩ } := by
  simp only [← getBE16_be]; rfl

theorem ArtSync.unmarshal_iff (p : ArtSync) (b : Bytes) (h : 14 ≤ b.length) :
    ((p.unmarshalBinary b).2 = none ↔ HdrOK b ∧ opOf b = OpCode.opSync) ∧
    (HdrOK b ∧ opOf b = OpCode.opSync → p.unmarshalBinary b = (syncOf b, none)) := by
  have hl : p.unmarshalBinary b = ArtSync.validate _ := unmarshalPacket_long p b h
  rw [hl, ArtSync.read_eq]
  by_cases hk : HdrOK b
  · simp only [ArtSync.validate, (header_validate_ok b).2 hk]
    have : (hdrOf b).opCode = opOf b := rfl
    by_cases ho : opOf b = OpCode.opSync <;> simp [this, ho, hk]
    rfl
  · obtain ⟨hd, e, he⟩ := header_validate_bad b hk
    simp [ArtSync.validate, he, hk]

/-! #### ArtAddress -/

theorem ArtAddress.wireSize_eq : wireSize ArtAddress = 107 := rfl

theorem ArtAddress.read_eq (b : Bytes) :
    GoStruct.ofVals (α := ArtAddress) (readVals b 0 (GoStruct.layout ArtAddress)) =
      { addressOf b with hdr := ⟨arrAt b 0 8, be16At b 8, arrAt b 10 2⟩ } := by
  simp only [addressOf, ← getBE16_be]; rfl

theorem ArtAddress.unmarshal_iff (p : ArtAddress) (b : Bytes) (h : 107 ≤ b.length) :
    ((p.unmarshalBinary b).2 = none ↔ HdrOK b ∧ opOf b = OpCode.opAddress) ∧
    (HdrOK b ∧ opOf b = OpCode.opAddress → p.unmarshalBinary b = (addressOf b, none)) := by
  have hl : p.unmarshalBinary b = ArtAddress.validate _ := unmarshalPacket_long p b h
  rw [hl, ArtAddress.read_eq]
  by_cases hk : HdrOK b
  · simp only [ArtAddress.validate, (header_validate_ok b).2 hk]
    have : (hdrOf b).opCode = opOf b := rfl
    by_cases ho : opOf b = OpCode.opAddress <;> simp [this, ho, hk]
    rfl
  · obtain ⟨hd, e, he⟩ := header_validate_bad b hk
    simp [ArtAddress.validate, he, hk]

/-! #### ArtTimeCode -/

theorem ArtTimeCode.wireSize_eq : wireSize ArtTimeCode = 19 := rfl

theorem ArtTimeCode.read_eq (b : Bytes) :
    GoStruct.ofVals (α := ArtTimeCode) (readVals b 0 (GoStruct.layout ArtTimeCode)) =
      { timeCodeOf b with hdr := ⟨arrAt b 0 8, be16At b 8, arrAt b 10 2⟩ } := by
  simp only [timeCodeOf, ← getBE16_be]; rfl

theorem ArtTimeCode.unmarshal_iff (p : ArtTimeCode) (b : Bytes) (h : 19 ≤ b.length) :
    ((p.unmarshalBinary b).2 = none ↔ HdrOK b ∧ opOf b = OpCode.opTimeCode) ∧
    (HdrOK b ∧ opOf b = OpCode.opTimeCode → p.unmarshalBinary b = (timeCodeOf b, none)) := by
  have hl : p.unmarshalBinary b = ArtTimeCode.validate _ := unmarshalPacket_long p b h
  rw [hl, ArtTimeCode.read_eq]
  by_cases hk : HdrOK b
  · simp only [ArtTimeCode.validate, (header_validate_ok b).2 hk]
    have : (hdrOf b).opCode = opOf b := rfl
    by_cases ho : opOf b = OpCode.opTimeCode <;> simp [this, ho, hk]
    rfl
  · obtain ⟨hd, e, he⟩ := header_validate_bad b hk
    simp [ArtTimeCode.validate, he, hk]

/-! #### ArtTrigger -/

theorem ArtTrigger.wireSize_eq : wireSize ArtTrigger = 530 := rfl

theorem ArtTrigger.read_eq (b : Bytes) :
    GoStruct.ofVals (α := ArtTrigger) (readVals b 0 (GoStruct.layout ArtTrigger)) =
      { triggerOf b with hdr := ⟨arrAt b 0 8, be16At b 8, arrAt b 10 2⟩ } := by
  simp only [triggerOf, ← getBE16_be]; rfl

theorem ArtTrigger.unmarshal_iff (p : ArtTrigger) (b : Bytes) (h : 530 ≤ b.length) :
    ((p.unmarshalBinary b).2 = none ↔ HdrOK b ∧ opOf b = OpCode.opTrigger) ∧
    (HdrOK b ∧ opOf b = OpCode.opTrigger → p.unmarshalBinary b = (triggerOf b, none)) := by
  have hl : p.unmarshalBinary b = ArtTrigger.validate _ := unmarshalPacket_long p b h
  rw [hl, ArtTrigger.read_eq]
  by_cases hk : HdrOK b
  · simp only [ArtTrigger.validate, (header_validate_ok b).2 hk]
    have : (hdrOf b).opCode = opOf b := rfl
    by_cases ho : opOf b = OpCode.opTrigger <;> simp [this, ho, hk]
    rfl
  · obtain ⟨hd, e, he⟩ := header_validate_bad b hk
    simp [ArtTrigger.validate, he, hk]

/-! #### ArtIPProg -/

theorem ArtIPProg.wireSize_eq : wireSize ArtIPProg = 34 := rfl

theorem ArtIPProg.read_eq (b : Bytes) :
    GoStruct.ofVals (α := ArtIPProg) (readVals b 0 (GoStruct.layout ArtIPProg)) =
      { ipProgOf b with hdr := ⟨arrAt b 0 8, be16At b 8, arrAt b 10 2⟩ } := by
  simp only [ipProgOf, ← getBE16_be]; rfl

theorem ArtIPProg.unmarshal_iff (p : ArtIPProg) (b : Bytes) (h : 34 ≤ b.length) :
    ((p.unmarshalBinary b).2 = none ↔ HdrOK b ∧ opOf b = OpCode.opIPProg) ∧
    (HdrOK b ∧ opOf b = OpCode.opIPProg → p.unmarshalBinary b = (ipProgOf b, none)) := by
  have hl : p.unmarshalBinary b = ArtIPProg.validate _ := unmarshalPacket_long p b h
  rw [hl, ArtIPProg.read_eq]
  by_cases hk : HdrOK b
  · simp only [ArtIPProg.validate, (header_validate_ok b).2 hk]
    have : (hdrOf b).opCode = opOf b := rfl
    by_cases ho : opOf b = OpCode.opIPProg <;> simp [this, ho, hk]
    rfl
  · obtain ⟨hd, e, he⟩ := header_validate_bad b hk
    simp [ArtIPProg.validate, he, hk]

/-! #### ArtIPProgReply -/

theorem ArtIPProgReply.wireSize_eq : wireSize ArtIPProgReply = 34 := rfl

theorem ArtIPProgReply.read_eq (b : Bytes) :
    GoStruct.ofVals (α := ArtIPProgReply) (readVals b 0 (GoStruct.layout ArtIPProgReply)) =
      { ipProgReplyOf b with hdr := ⟨arrAt b 0 8, be16At b 8, arrAt b 10 2⟩ } := by
  simp only [ipProgReplyOf, ← getBE16_be]; rfl

theorem ArtIPProgReply.unmarshal_iff (p : ArtIPProgReply) (b : Bytes) (h : 34 ≤ b.length) :
    ((p.unmarshalBinary b).2 = none ↔ HdrOK b ∧ opOf b = OpCode.opIPProgReply) ∧
    (HdrOK b ∧ opOf b = OpCode.opIPProgReply → p.unmarshalBinary b = (ipProgReplyOf b, none)) := by
  have hl : p.unmarshalBinary b = ArtIPProgReply.validate _ := unmarshalPacket_long p b h
  rw [hl, ArtIPProgReply.read_eq]
  by_cases hk : HdrOK b
  · simp only [ArtIPProgReply.validate, (header_validate_ok b).2 hk]
    have : (hdrOf b).opCode = opOf b := rfl
    by_cases ho : opOf b = OpCode.opIPProgReply <;> simp [this, ho, hk]
    rfl
  · obtain ⟨hd, e, he⟩ := header_validate_bad b hk
    simp [ArtIPProgReply.validate, he, hk]

/-! #### ArtCommand -/

theorem ArtCommand.wireSize_eq : wireSize ArtCommand = 528 := rfl

theorem ArtCommand.read_eq (b : Bytes) :
    GoStruct.ofVals (α := ArtCommand) (readVals b 0 (GoStruct.layout ArtCommand)) =
      { commandOf b with hdr := ⟨arrAt b 0 8, be16At b 8, arrAt b 10 2⟩ } := by
  simp only [commandOf, ← getBE16_be]; rfl

theorem ArtCommand.unmarshal_iff (p : ArtCommand) (b : Bytes) (h : 528 ≤ b.length) :
    ((p.unmarshalBinary b).2 = none ↔
      HdrOK b ∧ opOf b = OpCode.opCommand ∧ arrAt b 12 2 = ⟨[0xff, 0xff], rfl⟩) ∧
    (HdrOK b ∧ opOf b = OpCode.opCommand ∧ arrAt b 12 2 = ⟨[0xff, 0xff], rfl⟩ →
      p.unmarshalBinary b = (commandOf b, none)) := by
  have hl : p.unmarshalBinary b = ArtCommand.validate _ := unmarshalPacket_long p b h
  rw [hl, ArtCommand.read_eq]
  by_cases hk : HdrOK b
  · simp only [ArtCommand.validate, (header_validate_ok b).2 hk]
    have : (hdrOf b).opCode = opOf b := rfl
    have hes : (commandOf b).estaManufacturer = arrAt b 12 2 := rfl
    by_cases ho : opOf b = OpCode.opCommand <;>
      by_cases he : arrAt b 12 2 = ⟨[0xff, 0xff], rfl⟩ <;> simp [this, ho, hk, hes, he]
    rw [← he]; rfl
  · obtain ⟨hd, e, he⟩ := header_validate_bad b hk
    simp [ArtCommand.validate, he, hk]

/-- A well-addressed ArtCommand with another manufacturer code is an invalid packet. -/
theorem ArtCommand.unmarshal_esta (p : ArtCommand) (b : Bytes) (h : 528 ≤ b.length) (hk : HdrOK b)
    (ho : opOf b = OpCode.opCommand) (he : arrAt b 12 2 ≠ ⟨[0xff, 0xff], rfl⟩) :
    p.unmarshalBinary b = (commandOf b, some .invalidPacket) := by
  have hl : p.unmarshalBinary b = ArtCommand.validate _ := unmarshalPacket_long p b h
  rw [hl, ArtCommand.read_eq]
  simp only [ArtCommand.validate, (header_validate_ok b).2 hk]
  have : (hdrOf b).opCode = opOf b := rfl
  have hes : (commandOf b).estaManufacturer = arrAt b 12 2 := rfl
  simp [this, ho, hes, he]
  rfl

/-! #### ArtPollReply -/

theorem ArtPollReply.wireSize_eq : wireSize ArtPollReply = 239 := rfl

theorem ArtPollReply.read_eq (b : Bytes) :
    GoStruct.ofVals (α := ArtPollReply) (readVals b 0 (GoStruct.layout ArtPollReply)) =
      { pollReplyOf b (be16At b 14) with opCode := be16At b 8 } := by
  simp only [pollReplyOf, ← getBE16_be]; rfl

/-- Complete description of ArtPollReply.UnmarshalBinary on a long enough datagram. -/
theorem ArtPollReply.unmarshal_eq (p : ArtPollReply) (b : Bytes) (h : 239 ≤ b.length) :
    p.unmarshalBinary b =
      if opOf b ≠ OpCode.opPollReply then
        (pollReplyOf b (be16At b 14), some .invalidOpCode)
      else if le16At b 14 ≠ 6454 ∧ be16At b 14 ≠ 6454 then
        (pollReplyOf b (be16At b 14), some (.invalidPort (be16At b 14)))
      else if 7 ≤ byteAt b 200 then (pollReplyOf b 6454, some .invalidStyleCode)
      else (pollReplyOf b 6454, none) := by
  have hl : p.unmarshalBinary b = ArtPollReply.validate _ := unmarshalPacket_long p b h
  rw [hl, ArtPollReply.read_eq]
  have hst : ∀ x : UInt8, StyleCode.validStyle x = decide (x < 7) :=
    forall_u8 (by decide +kernel)
  have hop : swapUint16 (be16At b 8) = opOf b := swap_be16At b 8
  have hsw := swap_be16At b 14
  have hboth : le16At b 14 = 6454 → be16At b 14 ≠ 6454 := by
    intro h2 h3
    rw [h2, h3] at hsw
    exact absurd hsw (by decide)
  simp only [ArtPollReply.validate, hop, hst, artNetPort]
  show (if opOf b ≠ _ then _ else if swapUint16 (be16At b 14) ≠ 6454 then
    (if swapUint16 (swapUint16 (be16At b 14)) ≠ 6454 then _ else _) else _) = _
  rw [swap_swap, swap_be16At]
  by_cases h1 : opOf b = OpCode.opPollReply <;> by_cases h2 : le16At b 14 = 6454 <;>
    by_cases h3 : be16At b 14 = 6454 <;> by_cases h4 : byteAt b 200 < 7 <;>
    first
    | exact absurd h3 (hboth h2)
    | simp [h1, h2, h3, h4, hsw, swap_le16At, pollReplyOf, ← UInt8.not_lt]

end Verif
