import Verif.Lemmas.Accept
/-
Helper lemmas: MarshalBinary produces the specified images, and decoding an image gives the packet.
-/
namespace Verif
open Spec Packet Code

/-- The header written by every packet with an embedded Header. -/
def finished (op : OpCode) : Header := ⟨artNet, swapUint16 op, Version.bytes⟩

theorem finish_eq (h : Header) : h.finish = finished h.opCode := rfl

theorem le16_swap (x : UInt16) : be16 (swapUint16 x) = le16 x := by
  rw [← putBE16_be, putBE16_swap]

theorem ArtDMX.wireSize_eq : wireSize ArtDMX = 530 := rfl

theorem ArtDMX.read_eq (b : Bytes) :
    GoStruct.ofVals (α := ArtDMX) (readVals b 0 (GoStruct.layout ArtDMX)) =
      { dmxOf b with
        hdr := ⟨arrAt b 0 8, be16At b 8, arrAt b 10 2⟩, data := arrAt b 18 512 } := by
  simp only [dmxOf, ← getBE16_be]; rfl

theorem hdr_of_finished (b : Bytes) (op : OpCode)
    (h : (⟨arrAt b 0 8, be16At b 8, arrAt b 10 2⟩ : Header) = finished op) :
    HdrOK b ∧ opOf b = op ∧ hdrOf b = ⟨artNet, op, Version.bytes⟩ := by
  simp only [finished, Header.mk.injEq] at h
  obtain ⟨h1, h2, h3⟩ := h
  have ho : opOf b = op := by rw [opOf, ← swap_be16At, h2, swap_swap]
  refine ⟨⟨h1, fun _ => ?_⟩, ho, ?_⟩
  · have : byteAt b 11 = (arrAt b 10 2).get 1 := rfl
    rw [this, h3]; decide
  · simp [hdrOf, h1, ho, h3]

theorem ofFn_if_lt (b : Bytes) (n l : Nat) (h : n ≤ l) :
    (⟨List.ofFn fun i : Fin n => if i.val < l then byteAt b (18 + i) else 0, List.length_ofFn⟩ :
      Arr n) = arrAt b 18 n := by
  ext1
  simp only [arrAt]
  congr 1
  funext i
  rw [if_pos (by omega)]

theorem arrAt_wireTail {n : Nat} (b : Bytes) (a : Arr n) (o : Nat) (h : arrAt b o n = a) :
    ∀ i : Fin n, byteAt b (o + i) = a.get i := by
  intro i
  subst h
  simp [Arr.get, arrAt]

/-! #### ArtPoll -/

theorem ArtPoll.write_read (q : ArtPoll) :
    { pollOf (binaryWrite q) with
      hdr := ⟨arrAt (binaryWrite q) 0 8, be16At (binaryWrite q) 8, arrAt (binaryWrite q) 10 2⟩ }
      = q := by
  rw [← ArtPoll.read_eq]
  have := readVals_encVals (GoStruct.layout ArtPoll) (GoStruct.toVals q) []
  rw [List.append_nil] at this
  rw [binaryWrite, this]
  rfl

theorem ArtPoll.write_hdr (q : ArtPoll) (op : OpCode) (h : q.hdr = finished op) :
    HdrOK (binaryWrite q) ∧ opOf (binaryWrite q) = op ∧
    hdrOf (binaryWrite q) = ⟨artNet, op, Version.bytes⟩ :=
  hdr_of_finished _ _ (by rw [← h]; exact congrArg ArtPoll.hdr (ArtPoll.write_read q))

theorem ArtPoll.write_of (q : ArtPoll) (op : OpCode) (h : q.hdr = finished op) :
    pollOf (binaryWrite q) = { q with hdr := ⟨artNet, op, Version.bytes⟩ } := by
  have h1 := (ArtPoll.write_hdr q op h).2.2
  conv => rhs; rw [← ArtPoll.write_read q]
  rw [← h1]
  rfl

theorem ArtPoll.finish_hdr (p : ArtPoll) : p.finish.hdr = finished OpCode.opPoll := rfl

theorem ArtPoll.marshal_eq (p : ArtPoll) : p.marshalBinary = (p.finish, binaryWrite p.finish, none) := rfl

theorem ArtPoll.image_eq (p : ArtPoll) : binaryWrite p.finish = pollImage p := by
  simp only [binaryWrite, GoStruct.layout, GoStruct.toVals, encVals, encField, pollImage, putBE16_be,
    ArtPoll.finish, Header.finish, Header.swapOpCode, le16_swap, header, artNet, Version.bytes,
    magic, List.append_assoc, List.append_nil]
  rfl

theorem ArtPoll.roundtrip (p : ArtPoll) :
    unmarshal (binaryWrite p.finish) =
      .ok (some (.poll { p.finish with hdr := ⟨artNet, OpCode.opPoll, Version.bytes⟩ }), none) := by
  obtain ⟨h1, h2, h3⟩ := ArtPoll.write_hdr p.finish _ (ArtPoll.finish_hdr p)
  have h4 := ArtPoll.write_of p.finish _ (ArtPoll.finish_hdr p)
  have hl : (binaryWrite p.finish).length = 14 := binaryWrite_length _
  rw [← h4]
  exact unmarshal_of_accepts _ _ (.poll _ ((headerOK_iff _).mpr ⟨by omega, h1⟩) h2 (by omega))

/-! #### ArtDiagData -/

theorem ArtDiagData.write_read (q : ArtDiagData) :
    { diagDataOf (binaryWrite q) with
      hdr := ⟨arrAt (binaryWrite q) 0 8, be16At (binaryWrite q) 8, arrAt (binaryWrite q) 10 2⟩ }
      = q := by
  rw [← ArtDiagData.read_eq]
  have := readVals_encVals (GoStruct.layout ArtDiagData) (GoStruct.toVals q) []
  rw [List.append_nil] at this
  rw [binaryWrite, this]
  rfl

theorem ArtDiagData.write_hdr (q : ArtDiagData) (op : OpCode) (h : q.hdr = finished op) :
    HdrOK (binaryWrite q) ∧ opOf (binaryWrite q) = op ∧
    hdrOf (binaryWrite q) = ⟨artNet, op, Version.bytes⟩ :=
  hdr_of_finished _ _ (by rw [← h]; exact congrArg ArtDiagData.hdr (ArtDiagData.write_read q))

theorem ArtDiagData.write_of (q : ArtDiagData) (op : OpCode) (h : q.hdr = finished op) :
    diagDataOf (binaryWrite q) = { q with hdr := ⟨artNet, op, Version.bytes⟩ } := by
  have h1 := (ArtDiagData.write_hdr q op h).2.2
  conv => rhs; rw [← ArtDiagData.write_read q]
  rw [← h1]
  rfl

theorem ArtDiagData.finish_hdr (p : ArtDiagData) : p.finish.hdr = finished p.hdr.opCode := rfl

theorem ArtDiagData.marshal_eq (p : ArtDiagData) : p.marshalBinary = (p.finish, binaryWrite p.finish, none) := rfl

theorem ArtDiagData.image_eq (p : ArtDiagData) (h : p.hdr.opCode = OpCode.opDiagData) :
    binaryWrite p.finish = diagDataImage p := by
  simp only [binaryWrite, GoStruct.layout, GoStruct.toVals, encVals, encField, diagDataImage, putBE16_be,
    ArtDiagData.finish, Header.finish, Header.swapOpCode, h, le16_swap, header, artNet, Version.bytes, magic,
    List.append_assoc, List.append_nil]
  rfl

theorem ArtDiagData.roundtrip (p : ArtDiagData) (h : p.hdr.opCode = OpCode.opDiagData) :
    unmarshal (binaryWrite p.finish) =
      .ok (some (.diagData { p.finish with hdr := ⟨artNet, OpCode.opDiagData, Version.bytes⟩ }), none) := by
  have hf := ArtDiagData.finish_hdr p
  rw [h] at hf
  obtain ⟨h1, h2, h3⟩ := ArtDiagData.write_hdr p.finish _ hf
  have h4 := ArtDiagData.write_of p.finish _ hf
  have hl : (binaryWrite p.finish).length = 530 := binaryWrite_length _
  rw [← h4]
  exact unmarshal_of_accepts _ _ (.diagData _ ((headerOK_iff _).mpr ⟨by omega, h1⟩) h2 (by omega))

/-- A packet marshalled with opcode 0 (fresh from its constructor) is rejected. -/
theorem ArtDiagData.fresh_rejected (p : ArtDiagData) (h : p.hdr.opCode = 0) :
    unmarshal (binaryWrite p.finish) = .ok (none, some (.invalidOpCodeDispatch 0)) := by
  have hf := ArtDiagData.finish_hdr p
  rw [h] at hf
  obtain ⟨h1, h2, h3⟩ := ArtDiagData.write_hdr p.finish _ hf
  have hl : (binaryWrite p.finish).length = 530 := binaryWrite_length _
  refine unmarshal_undispatched _ (by omega) (hdrOK_gate h1 (by rw [h2]; decide)) _ ?_
  rw [h2]; rfl

/-! #### ArtCommand -/

theorem ArtCommand.write_read (q : ArtCommand) :
    { commandOf (binaryWrite q) with
      hdr := ⟨arrAt (binaryWrite q) 0 8, be16At (binaryWrite q) 8, arrAt (binaryWrite q) 10 2⟩ }
      = q := by
  rw [← ArtCommand.read_eq]
  have := readVals_encVals (GoStruct.layout ArtCommand) (GoStruct.toVals q) []
  rw [List.append_nil] at this
  rw [binaryWrite, this]
  rfl

theorem ArtCommand.write_hdr (q : ArtCommand) (op : OpCode) (h : q.hdr = finished op) :
    HdrOK (binaryWrite q) ∧ opOf (binaryWrite q) = op ∧
    hdrOf (binaryWrite q) = ⟨artNet, op, Version.bytes⟩ :=
  hdr_of_finished _ _ (by rw [← h]; exact congrArg ArtCommand.hdr (ArtCommand.write_read q))

theorem ArtCommand.write_of (q : ArtCommand) (op : OpCode) (h : q.hdr = finished op) :
    commandOf (binaryWrite q) = { q with hdr := ⟨artNet, op, Version.bytes⟩ } := by
  have h1 := (ArtCommand.write_hdr q op h).2.2
  conv => rhs; rw [← ArtCommand.write_read q]
  rw [← h1]
  rfl

theorem ArtCommand.finish_hdr (p : ArtCommand) : p.finish.hdr = finished p.hdr.opCode := rfl

theorem ArtCommand.marshal_eq (p : ArtCommand) : p.marshalBinary = (p.finish, binaryWrite p.finish, none) := rfl

theorem ArtCommand.image_eq (p : ArtCommand) (h : p.hdr.opCode = OpCode.opCommand) :
    binaryWrite p.finish = commandImage p := by
  simp only [binaryWrite, GoStruct.layout, GoStruct.toVals, encVals, encField, commandImage, putBE16_be,
    ArtCommand.finish, Header.finish, Header.swapOpCode, h, le16_swap, header, artNet, Version.bytes, magic,
    List.append_assoc, List.append_nil]
  rfl

theorem ArtCommand.roundtrip (p : ArtCommand) (h : p.hdr.opCode = OpCode.opCommand) :
    unmarshal (binaryWrite p.finish) =
      .ok (some (.command { p.finish with hdr := ⟨artNet, OpCode.opCommand, Version.bytes⟩ }), none) := by
  have hf := ArtCommand.finish_hdr p
  rw [h] at hf
  obtain ⟨h1, h2, h3⟩ := ArtCommand.write_hdr p.finish _ hf
  have h4 := ArtCommand.write_of p.finish _ hf
  have hl : (binaryWrite p.finish).length = 528 := binaryWrite_length _
  rw [← h4]
  refine unmarshal_of_accepts _ _ (.command _ ((headerOK_iff _).mpr ⟨by omega, h1⟩) h2 (by omega) ?_)
  exact (esta_iff _).mp (congrArg ArtCommand.estaManufacturer h4)

/-- A packet marshalled with opcode 0 (fresh from its constructor) is rejected. -/
theorem ArtCommand.fresh_rejected (p : ArtCommand) (h : p.hdr.opCode = 0) :
    unmarshal (binaryWrite p.finish) = .ok (none, some (.invalidOpCodeDispatch 0)) := by
  have hf := ArtCommand.finish_hdr p
  rw [h] at hf
  obtain ⟨h1, h2, h3⟩ := ArtCommand.write_hdr p.finish _ hf
  have hl : (binaryWrite p.finish).length = 528 := binaryWrite_length _
  refine unmarshal_undispatched _ (by omega) (hdrOK_gate h1 (by rw [h2]; decide)) _ ?_
  rw [h2]; rfl

/-! #### ArtDMX -/

theorem ArtDMX.write_read (q : ArtDMX) :
    { dmxOf (binaryWrite q) with
      hdr := ⟨arrAt (binaryWrite q) 0 8, be16At (binaryWrite q) 8, arrAt (binaryWrite q) 10 2⟩, data := arrAt (binaryWrite q) 18 512 }
      = q := by
  rw [← ArtDMX.read_eq]
  have := readVals_encVals (GoStruct.layout ArtDMX) (GoStruct.toVals q) []
  rw [List.append_nil] at this
  rw [binaryWrite, this]
  rfl

theorem ArtDMX.write_hdr (q : ArtDMX) (op : OpCode) (h : q.hdr = finished op) :
    HdrOK (binaryWrite q) ∧ opOf (binaryWrite q) = op ∧
    hdrOf (binaryWrite q) = ⟨artNet, op, Version.bytes⟩ :=
  hdr_of_finished _ _ (by rw [← h]; exact congrArg ArtDMX.hdr (ArtDMX.write_read q))

theorem ArtDMX.write_of (q : ArtDMX) (op : OpCode) (h : q.hdr = finished op) (hl : q.length = 512) :
    dmxOf (binaryWrite q) = { q with hdr := ⟨artNet, op, Version.bytes⟩ } ∧
    be16At (binaryWrite q) 16 = 512 := by
  have h1 := (ArtDMX.write_hdr q op h).2.2
  have hlen : be16At (binaryWrite q) 16 = 512 := by
    rw [← hl]; exact congrArg ArtDMX.length (ArtDMX.write_read q)
  refine ⟨?_, hlen⟩
  conv => rhs; rw [← ArtDMX.write_read q]
  rw [← h1]
  simp only [dmxOf, hlen]
  rw [ofFn_if_lt (binaryWrite q) 512 (512 : UInt16).toNat (Nat.le_refl _)]

theorem ArtDMX.finish_hdr (p : ArtDMX) : p.finish.hdr = finished OpCode.opDMX := rfl

theorem ArtDMX.marshal_eq (p : ArtDMX) : p.marshalBinary = (p.finish, binaryWrite p.finish, none) := rfl

theorem ArtDMX.image_eq (p : ArtDMX) : binaryWrite p.finish = dmxImage p := by
  simp only [binaryWrite, GoStruct.layout, GoStruct.toVals, encVals, encField, dmxImage, putBE16_be,
    ArtDMX.finish, Header.finish, Header.swapOpCode, le16_swap, artNet, Version.bytes,
    magic, List.append_assoc, List.append_nil]
  rfl

theorem ArtDMX.roundtrip (p : ArtDMX) :
    unmarshal (binaryWrite p.finish) =
      .ok (some (.dmx { p.finish with hdr := ⟨artNet, OpCode.opDMX, Version.bytes⟩ }), none) := by
  obtain ⟨h1, h2, h3⟩ := ArtDMX.write_hdr p.finish _ (ArtDMX.finish_hdr p)
  obtain ⟨h4, h5⟩ := ArtDMX.write_of p.finish _ (ArtDMX.finish_hdr p) rfl
  have hl : (binaryWrite p.finish).length = 530 := binaryWrite_length _
  rw [← h4]
  have h5 : (be16At (binaryWrite p.finish) 16).toNat = 512 := by rw [h5]; rfl
  exact unmarshal_of_accepts _ _ (.dmx _ ((headerOK_iff _).mpr ⟨by omega, h1⟩) h2
    (by omega) (by omega) (by omega) (by omega))

/-! #### ArtNzs -/

theorem ArtNzs.write_read (q : ArtNzs) :
    { nzsOf (binaryWrite q) with
      hdr := ⟨arrAt (binaryWrite q) 0 8, be16At (binaryWrite q) 8, arrAt (binaryWrite q) 10 2⟩ }
      = q := by
  rw [← ArtNzs.read_eq]
  have := readVals_encVals (GoStruct.layout ArtNzs) (GoStruct.toVals q) []
  rw [List.append_nil] at this
  rw [binaryWrite, this]
  rfl

theorem ArtNzs.write_hdr (q : ArtNzs) (op : OpCode) (h : q.hdr = finished op) :
    HdrOK (binaryWrite q) ∧ opOf (binaryWrite q) = op ∧
    hdrOf (binaryWrite q) = ⟨artNet, op, Version.bytes⟩ :=
  hdr_of_finished _ _ (by rw [← h]; exact congrArg ArtNzs.hdr (ArtNzs.write_read q))

theorem ArtNzs.write_of (q : ArtNzs) (op : OpCode) (h : q.hdr = finished op) :
    nzsOf (binaryWrite q) = { q with hdr := ⟨artNet, op, Version.bytes⟩ } := by
  have h1 := (ArtNzs.write_hdr q op h).2.2
  conv => rhs; rw [← ArtNzs.write_read q]
  rw [← h1]
  rfl

theorem ArtNzs.finish_hdr (p : ArtNzs) : p.finish.hdr = finished p.hdr.opCode := rfl

theorem ArtNzs.marshal_eq (p : ArtNzs) : p.marshalBinary = (p.finish, binaryWrite p.finish, none) := rfl

theorem ArtNzs.image_eq (p : ArtNzs) (h : p.hdr.opCode = OpCode.opNzs) :
    binaryWrite p.finish = nzsImage p := by
  simp only [binaryWrite, GoStruct.layout, GoStruct.toVals, encVals, encField, nzsImage, putBE16_be,
    ArtNzs.finish, Header.finish, Header.swapOpCode, h, le16_swap, header, artNet, Version.bytes, magic,
    List.append_assoc, List.append_nil]
  rfl

theorem ArtNzs.roundtrip (p : ArtNzs) (h : p.hdr.opCode = OpCode.opNzs) :
    unmarshal (binaryWrite p.finish) =
      .ok (some (.nzs { p.finish with hdr := ⟨artNet, OpCode.opNzs, Version.bytes⟩ }), none) := by
  have hf := ArtNzs.finish_hdr p
  rw [h] at hf
  obtain ⟨h1, h2, h3⟩ := ArtNzs.write_hdr p.finish _ hf
  have h4 := ArtNzs.write_of p.finish _ hf
  have hl : (binaryWrite p.finish).length = 530 := binaryWrite_length _
  rw [← h4]
  exact unmarshal_of_accepts _ _ (.nzs _ ((headerOK_iff _).mpr ⟨by omega, h1⟩) h2 (by omega))

/-- A packet marshalled with opcode 0 (fresh from its constructor) is rejected. -/
theorem ArtNzs.fresh_rejected (p : ArtNzs) (h : p.hdr.opCode = 0) :
    unmarshal (binaryWrite p.finish) = .ok (none, some (.invalidOpCodeDispatch 0)) := by
  have hf := ArtNzs.finish_hdr p
  rw [h] at hf
  obtain ⟨h1, h2, h3⟩ := ArtNzs.write_hdr p.finish _ hf
  have hl : (binaryWrite p.finish).length = 530 := binaryWrite_length _
  refine unmarshal_undispatched _ (by omega) (hdrOK_gate h1 (by rw [h2]; decide)) _ ?_
  rw [h2]; rfl

/-! #### ArtSync -/

theorem ArtSync.write_read (q : ArtSync) :
    { syncOf (binaryWrite q) with
      hdr := ⟨arrAt (binaryWrite q) 0 8, be16At (binaryWrite q) 8, arrAt (binaryWrite q) 10 2⟩ }
      = q := by
  rw [← ArtSync.read_eq]
  have := readVals_encVals (GoStruct.layout ArtSync) (GoStruct.toVals q) []
  rw [List.append_nil] at this
  rw [binaryWrite, this]
  rfl

theorem ArtSync.write_hdr (q : ArtSync) (op : OpCode) (h : q.hdr = finished op) :
    HdrOK (binaryWrite q) ∧ opOf (binaryWrite q) = op ∧
    hdrOf (binaryWrite q) = ⟨artNet, op, Version.bytes⟩ :=
  hdr_of_finished _ _ (by rw [← h]; exact congrArg ArtSync.hdr (ArtSync.write_read q))

theorem ArtSync.write_of (q : ArtSync) (op : OpCode) (h : q.hdr = finished op) :
    syncOf (binaryWrite q) = { q with hdr := ⟨artNet, op, Version.bytes⟩ } := by
  have h1 := (ArtSync.write_hdr q op h).2.2
  rw [syncOf, h1]

theorem ArtSync.finish_hdr (p : ArtSync) : p.finish.hdr = finished p.hdr.opCode := rfl

theorem ArtSync.marshal_eq (p : ArtSync) : p.marshalBinary = (p.finish, binaryWrite p.finish, none) := rfl

theorem ArtSync.image_eq (p : ArtSync) (h : p.hdr.opCode = OpCode.opSync) :
    binaryWrite p.finish = syncImage p := by
  simp only [binaryWrite, GoStruct.layout, GoStruct.toVals, encVals, encField, syncImage, putBE16_be,
    ArtSync.finish, Header.finish, Header.swapOpCode, h, le16_swap, header, artNet, Version.bytes, magic,
    List.append_assoc, List.append_nil]
  rfl

theorem ArtSync.roundtrip (p : ArtSync) (h : p.hdr.opCode = OpCode.opSync) :
    unmarshal (binaryWrite p.finish) =
      .ok (some (.sync { p.finish with hdr := ⟨artNet, OpCode.opSync, Version.bytes⟩ }), none) := by
  have hf := ArtSync.finish_hdr p
  rw [h] at hf
  obtain ⟨h1, h2, h3⟩ := ArtSync.write_hdr p.finish _ hf
  have h4 := ArtSync.write_of p.finish _ hf
  have hl : (binaryWrite p.finish).length = 14 := binaryWrite_length _
  rw [← h4]
  exact unmarshal_of_accepts _ _ (.sync _ ((headerOK_iff _).mpr ⟨by omega, h1⟩) h2 (by omega))

/-- A packet marshalled with opcode 0 (fresh from its constructor) is rejected. -/
theorem ArtSync.fresh_rejected (p : ArtSync) (h : p.hdr.opCode = 0) :
    unmarshal (binaryWrite p.finish) = .ok (none, some (.invalidOpCodeDispatch 0)) := by
  have hf := ArtSync.finish_hdr p
  rw [h] at hf
  obtain ⟨h1, h2, h3⟩ := ArtSync.write_hdr p.finish _ hf
  have hl : (binaryWrite p.finish).length = 14 := binaryWrite_length _
  refine unmarshal_undispatched _ (by omega) (hdrOK_gate h1 (by rw [h2]; decide)) _ ?_
  rw [h2]; rfl

/-! #### ArtAddress -/

theorem ArtAddress.write_read (q : ArtAddress) :
    { addressOf (binaryWrite q) with
      hdr := ⟨arrAt (binaryWrite q) 0 8, be16At (binaryWrite q) 8, arrAt (binaryWrite q) 10 2⟩ }
      = q := by
  rw [← ArtAddress.read_eq]
  have := readVals_encVals (GoStruct.layout ArtAddress) (GoStruct.toVals q) []
  rw [List.append_nil] at this
  rw [binaryWrite, this]
  rfl

theorem ArtAddress.write_hdr (q : ArtAddress) (op : OpCode) (h : q.hdr = finished op) :
    HdrOK (binaryWrite q) ∧ opOf (binaryWrite q) = op ∧
    hdrOf (binaryWrite q) = ⟨artNet, op, Version.bytes⟩ :=
  hdr_of_finished _ _ (by rw [← h]; exact congrArg ArtAddress.hdr (ArtAddress.write_read q))

theorem ArtAddress.write_of (q : ArtAddress) (op : OpCode) (h : q.hdr = finished op) :
    addressOf (binaryWrite q) = { q with hdr := ⟨artNet, op, Version.bytes⟩ } := by
  have h1 := (ArtAddress.write_hdr q op h).2.2
  conv => rhs; rw [← ArtAddress.write_read q]
  rw [← h1]
  rfl

theorem ArtAddress.finish_hdr (p : ArtAddress) : p.finish.hdr = finished p.hdr.opCode := rfl

theorem ArtAddress.marshal_eq (p : ArtAddress) : p.marshalBinary = (p.finish, binaryWrite p.finish, none) := rfl

theorem ArtAddress.image_eq (p : ArtAddress) (h : p.hdr.opCode = OpCode.opAddress) :
    binaryWrite p.finish = addressImage p := by
  simp only [binaryWrite, GoStruct.layout, GoStruct.toVals, encVals, encField, addressImage, putBE16_be,
    ArtAddress.finish, Header.finish, Header.swapOpCode, h, le16_swap, header, artNet, Version.bytes, magic,
    List.append_assoc, List.append_nil]
  rfl

theorem ArtAddress.roundtrip (p : ArtAddress) (h : p.hdr.opCode = OpCode.opAddress) :
    unmarshal (binaryWrite p.finish) =
      .ok (some (.address { p.finish with hdr := ⟨artNet, OpCode.opAddress, Version.bytes⟩ }), none) := by
  have hf := ArtAddress.finish_hdr p
  rw [h] at hf
  obtain ⟨h1, h2, h3⟩ := ArtAddress.write_hdr p.finish _ hf
  have h4 := ArtAddress.write_of p.finish _ hf
  have hl : (binaryWrite p.finish).length = 107 := binaryWrite_length _
  rw [← h4]
  exact unmarshal_of_accepts _ _ (.address _ ((headerOK_iff _).mpr ⟨by omega, h1⟩) h2 (by omega))

/-- A packet marshalled with opcode 0 (fresh from its constructor) is rejected. -/
theorem ArtAddress.fresh_rejected (p : ArtAddress) (h : p.hdr.opCode = 0) :
    unmarshal (binaryWrite p.finish) = .ok (none, some (.invalidOpCodeDispatch 0)) := by
  have hf := ArtAddress.finish_hdr p
  rw [h] at hf
  obtain ⟨h1, h2, h3⟩ := ArtAddress.write_hdr p.finish _ hf
  have hl : (binaryWrite p.finish).length = 107 := binaryWrite_length _
  refine unmarshal_undispatched _ (by omega) (hdrOK_gate h1 (by rw [h2]; decide)) _ ?_
  rw [h2]; rfl

/-! #### ArtTimeCode -/

theorem ArtTimeCode.write_read (q : ArtTimeCode) :
    { timeCodeOf (binaryWrite q) with
      hdr := ⟨arrAt (binaryWrite q) 0 8, be16At (binaryWrite q) 8, arrAt (binaryWrite q) 10 2⟩ }
      = q := by
  rw [← ArtTimeCode.read_eq]
  have := readVals_encVals (GoStruct.layout ArtTimeCode) (GoStruct.toVals q) []
  rw [List.append_nil] at this
  rw [binaryWrite, this]
  rfl

theorem ArtTimeCode.write_hdr (q : ArtTimeCode) (op : OpCode) (h : q.hdr = finished op) :
    HdrOK (binaryWrite q) ∧ opOf (binaryWrite q) = op ∧
    hdrOf (binaryWrite q) = ⟨artNet, op, Version.bytes⟩ :=
  hdr_of_finished _ _ (by rw [← h]; exact congrArg ArtTimeCode.hdr (ArtTimeCode.write_read q))

theorem ArtTimeCode.write_of (q : ArtTimeCode) (op : OpCode) (h : q.hdr = finished op) :
    timeCodeOf (binaryWrite q) = { q with hdr := ⟨artNet, op, Version.bytes⟩ } := by
  have h1 := (ArtTimeCode.write_hdr q op h).2.2
  conv => rhs; rw [← ArtTimeCode.write_read q]
  rw [← h1]
  rfl

theorem ArtTimeCode.finish_hdr (p : ArtTimeCode) : p.finish.hdr = finished p.hdr.opCode := rfl

theorem ArtTimeCode.marshal_eq (p : ArtTimeCode) : p.marshalBinary = (p.finish, binaryWrite p.finish, none) := rfl

theorem ArtTimeCode.image_eq (p : ArtTimeCode) (h : p.hdr.opCode = OpCode.opTimeCode) :
    binaryWrite p.finish = timeCodeImage p := by
  simp only [binaryWrite, GoStruct.layout, GoStruct.toVals, encVals, encField, timeCodeImage, putBE16_be,
    ArtTimeCode.finish, Header.finish, Header.swapOpCode, h, le16_swap, header, artNet, Version.bytes, magic,
    List.append_assoc, List.append_nil]
  rfl

theorem ArtTimeCode.roundtrip (p : ArtTimeCode) (h : p.hdr.opCode = OpCode.opTimeCode) :
    unmarshal (binaryWrite p.finish) =
      .ok (some (.timeCode { p.finish with hdr := ⟨artNet, OpCode.opTimeCode, Version.bytes⟩ }), none) := by
  have hf := ArtTimeCode.finish_hdr p
  rw [h] at hf
  obtain ⟨h1, h2, h3⟩ := ArtTimeCode.write_hdr p.finish _ hf
  have h4 := ArtTimeCode.write_of p.finish _ hf
  have hl : (binaryWrite p.finish).length = 19 := binaryWrite_length _
  rw [← h4]
  exact unmarshal_of_accepts _ _ (.timeCode _ ((headerOK_iff _).mpr ⟨by omega, h1⟩) h2 (by omega))

/-- A packet marshalled with opcode 0 (fresh from its constructor) is rejected. -/
theorem ArtTimeCode.fresh_rejected (p : ArtTimeCode) (h : p.hdr.opCode = 0) :
    unmarshal (binaryWrite p.finish) = .ok (none, some (.invalidOpCodeDispatch 0)) := by
  have hf := ArtTimeCode.finish_hdr p
  rw [h] at hf
  obtain ⟨h1, h2, h3⟩ := ArtTimeCode.write_hdr p.finish _ hf
  have hl : (binaryWrite p.finish).length = 19 := binaryWrite_length _
  refine unmarshal_undispatched _ (by omega) (hdrOK_gate h1 (by rw [h2]; decide)) _ ?_
  rw [h2]; rfl

/-! #### ArtTrigger -/

theorem ArtTrigger.write_read (q : ArtTrigger) :
    { triggerOf (binaryWrite q) with
      hdr := ⟨arrAt (binaryWrite q) 0 8, be16At (binaryWrite q) 8, arrAt (binaryWrite q) 10 2⟩ }
      = q := by
  rw [← ArtTrigger.read_eq]
  have := readVals_encVals (GoStruct.layout ArtTrigger) (GoStruct.toVals q) []
  rw [List.append_nil] at this
  rw [binaryWrite, this]
  rfl

theorem ArtTrigger.write_hdr (q : ArtTrigger) (op : OpCode) (h : q.hdr = finished op) :
    HdrOK (binaryWrite q) ∧ opOf (binaryWrite q) = op ∧
    hdrOf (binaryWrite q) = ⟨artNet, op, Version.bytes⟩ :=
  hdr_of_finished _ _ (by rw [← h]; exact congrArg ArtTrigger.hdr (ArtTrigger.write_read q))

theorem ArtTrigger.write_of (q : ArtTrigger) (op : OpCode) (h : q.hdr = finished op) :
    triggerOf (binaryWrite q) = { q with hdr := ⟨artNet, op, Version.bytes⟩ } := by
  have h1 := (ArtTrigger.write_hdr q op h).2.2
  conv => rhs; rw [← ArtTrigger.write_read q]
  rw [← h1]
  rfl

theorem ArtTrigger.finish_hdr (p : ArtTrigger) : p.finish.hdr = finished p.hdr.opCode := rfl

theorem ArtTrigger.marshal_eq (p : ArtTrigger) : p.marshalBinary = (p.finish, binaryWrite p.finish, none) := rfl

theorem ArtTrigger.image_eq (p : ArtTrigger) (h : p.hdr.opCode = OpCode.opTrigger) :
    binaryWrite p.finish = triggerImage p := by
  simp only [binaryWrite, GoStruct.layout, GoStruct.toVals, encVals, encField, triggerImage, putBE16_be,
    ArtTrigger.finish, Header.finish, Header.swapOpCode, h, le16_swap, header, artNet, Version.bytes, magic,
    List.append_assoc, List.append_nil]
  rfl

theorem ArtTrigger.roundtrip (p : ArtTrigger) (h : p.hdr.opCode = OpCode.opTrigger) :
    unmarshal (binaryWrite p.finish) =
      .ok (some (.trigger { p.finish with hdr := ⟨artNet, OpCode.opTrigger, Version.bytes⟩ }), none) := by
  have hf := ArtTrigger.finish_hdr p
  rw [h] at hf
  obtain ⟨h1, h2, h3⟩ := ArtTrigger.write_hdr p.finish _ hf
  have h4 := ArtTrigger.write_of p.finish _ hf
  have hl : (binaryWrite p.finish).length = 530 := binaryWrite_length _
  rw [← h4]
  exact unmarshal_of_accepts _ _ (.trigger _ ((headerOK_iff _).mpr ⟨by omega, h1⟩) h2 (by omega))

/-- A packet marshalled with opcode 0 (fresh from its constructor) is rejected. -/
theorem ArtTrigger.fresh_rejected (p : ArtTrigger) (h : p.hdr.opCode = 0) :
    unmarshal (binaryWrite p.finish) = .ok (none, some (.invalidOpCodeDispatch 0)) := by
  have hf := ArtTrigger.finish_hdr p
  rw [h] at hf
  obtain ⟨h1, h2, h3⟩ := ArtTrigger.write_hdr p.finish _ hf
  have hl : (binaryWrite p.finish).length = 530 := binaryWrite_length _
  refine unmarshal_undispatched _ (by omega) (hdrOK_gate h1 (by rw [h2]; decide)) _ ?_
  rw [h2]; rfl

/-! #### ArtIPProg -/

theorem ArtIPProg.write_read (q : ArtIPProg) :
    { ipProgOf (binaryWrite q) with
      hdr := ⟨arrAt (binaryWrite q) 0 8, be16At (binaryWrite q) 8, arrAt (binaryWrite q) 10 2⟩ }
      = q := by
  rw [← ArtIPProg.read_eq]
  have := readVals_encVals (GoStruct.layout ArtIPProg) (GoStruct.toVals q) []
  rw [List.append_nil] at this
  rw [binaryWrite, this]
  rfl

theorem ArtIPProg.write_hdr (q : ArtIPProg) (op : OpCode) (h : q.hdr = finished op) :
    HdrOK (binaryWrite q) ∧ opOf (binaryWrite q) = op ∧
    hdrOf (binaryWrite q) = ⟨artNet, op, Version.bytes⟩ :=
  hdr_of_finished _ _ (by rw [← h]; exact congrArg ArtIPProg.hdr (ArtIPProg.write_read q))

theorem ArtIPProg.write_of (q : ArtIPProg) (op : OpCode) (h : q.hdr = finished op) :
    ipProgOf (binaryWrite q) = { q with hdr := ⟨artNet, op, Version.bytes⟩ } := by
  have h1 := (ArtIPProg.write_hdr q op h).2.2
  conv => rhs; rw [← ArtIPProg.write_read q]
  rw [← h1]
  rfl

theorem ArtIPProg.finish_hdr (p : ArtIPProg) : p.finish.hdr = finished p.hdr.opCode := rfl

theorem ArtIPProg.marshal_eq (p : ArtIPProg) : p.marshalBinary = (p.finish, binaryWrite p.finish, none) := rfl

theorem ArtIPProg.image_eq (p : ArtIPProg) (h : p.hdr.opCode = OpCode.opIPProg) :
    binaryWrite p.finish = ipProgImage p := by
  simp only [binaryWrite, GoStruct.layout, GoStruct.toVals, encVals, encField, ipProgImage, putBE16_be,
    ArtIPProg.finish, Header.finish, Header.swapOpCode, h, le16_swap, header, artNet, Version.bytes, magic,
    List.append_assoc, List.append_nil]
  rfl

theorem ArtIPProg.roundtrip (p : ArtIPProg) (h : p.hdr.opCode = OpCode.opIPProg) :
    unmarshal (binaryWrite p.finish) =
      .ok (some (.ipProg { p.finish with hdr := ⟨artNet, OpCode.opIPProg, Version.bytes⟩ }), none) := by
  have hf := ArtIPProg.finish_hdr p
  rw [h] at hf
  obtain ⟨h1, h2, h3⟩ := ArtIPProg.write_hdr p.finish _ hf
  have h4 := ArtIPProg.write_of p.finish _ hf
  have hl : (binaryWrite p.finish).length = 34 := binaryWrite_length _
  rw [← h4]
  exact unmarshal_of_accepts _ _ (.ipProg _ ((headerOK_iff _).mpr ⟨by omega, h1⟩) h2 (by omega))

/-- A packet marshalled with opcode 0 (fresh from its constructor) is rejected. -/
theorem ArtIPProg.fresh_rejected (p : ArtIPProg) (h : p.hdr.opCode = 0) :
    unmarshal (binaryWrite p.finish) = .ok (none, some (.invalidOpCodeDispatch 0)) := by
  have hf := ArtIPProg.finish_hdr p
  rw [h] at hf
  obtain ⟨h1, h2, h3⟩ := ArtIPProg.write_hdr p.finish _ hf
  have hl : (binaryWrite p.finish).length = 34 := binaryWrite_length _
  refine unmarshal_undispatched _ (by omega) (hdrOK_gate h1 (by rw [h2]; decide)) _ ?_
  rw [h2]; rfl

/-! #### ArtIPProgReply -/

theorem ArtIPProgReply.write_read (q : ArtIPProgReply) :
    { ipProgReplyOf (binaryWrite q) with
      hdr := ⟨arrAt (binaryWrite q) 0 8, be16At (binaryWrite q) 8, arrAt (binaryWrite q) 10 2⟩ }
      = q := by
  rw [← ArtIPProgReply.read_eq]
  have := readVals_encVals (GoStruct.layout ArtIPProgReply) (GoStruct.toVals q) []
  rw [List.append_nil] at this
  rw [binaryWrite, this]
  rfl

theorem ArtIPProgReply.write_hdr (q : ArtIPProgReply) (op : OpCode) (h : q.hdr = finished op) :
    HdrOK (binaryWrite q) ∧ opOf (binaryWrite q) = op ∧
    hdrOf (binaryWrite q) = ⟨artNet, op, Version.bytes⟩ :=
  hdr_of_finished _ _ (by rw [← h]; exact congrArg ArtIPProgReply.hdr (ArtIPProgReply.write_read q))

theorem ArtIPProgReply.write_of (q : ArtIPProgReply) (op : OpCode) (h : q.hdr = finished op) :
    ipProgReplyOf (binaryWrite q) = { q with hdr := ⟨artNet, op, Version.bytes⟩ } := by
  have h1 := (ArtIPProgReply.write_hdr q op h).2.2
  conv => rhs; rw [← ArtIPProgReply.write_read q]
  rw [← h1]
  rfl

theorem ArtIPProgReply.finish_hdr (p : ArtIPProgReply) : p.finish.hdr = finished p.hdr.opCode := rfl

theorem ArtIPProgReply.marshal_eq (p : ArtIPProgReply) : p.marshalBinary = (p.finish, binaryWrite p.finish, none) := rfl

theorem ArtIPProgReply.image_eq (p : ArtIPProgReply) (h : p.hdr.opCode = OpCode.opIPProgReply) :
    binaryWrite p.finish = ipProgReplyImage p := by
  simp only [binaryWrite, GoStruct.layout, GoStruct.toVals, encVals, encField, ipProgReplyImage, putBE16_be,
    ArtIPProgReply.finish, Header.finish, Header.swapOpCode, h, le16_swap, header, artNet, Version.bytes, magic,
    List.append_assoc, List.append_nil]
  rfl

theorem ArtIPProgReply.roundtrip (p : ArtIPProgReply) (h : p.hdr.opCode = OpCode.opIPProgReply) :
    unmarshal (binaryWrite p.finish) =
      .ok (some (.ipProgReply { p.finish with hdr := ⟨artNet, OpCode.opIPProgReply, Version.bytes⟩ }), none) := by
  have hf := ArtIPProgReply.finish_hdr p
  rw [h] at hf
  obtain ⟨h1, h2, h3⟩ := ArtIPProgReply.write_hdr p.finish _ hf
  have h4 := ArtIPProgReply.write_of p.finish _ hf
  have hl : (binaryWrite p.finish).length = 34 := binaryWrite_length _
  rw [← h4]
  exact unmarshal_of_accepts _ _ (.ipProgReply _ ((headerOK_iff _).mpr ⟨by omega, h1⟩) h2 (by omega))

/-- A packet marshalled with opcode 0 (fresh from its constructor) is rejected. -/
theorem ArtIPProgReply.fresh_rejected (p : ArtIPProgReply) (h : p.hdr.opCode = 0) :
    unmarshal (binaryWrite p.finish) = .ok (none, some (.invalidOpCodeDispatch 0)) := by
  have hf := ArtIPProgReply.finish_hdr p
  rw [h] at hf
  obtain ⟨h1, h2, h3⟩ := ArtIPProgReply.write_hdr p.finish _ hf
  have hl : (binaryWrite p.finish).length = 34 := binaryWrite_length _
  refine unmarshal_undispatched _ (by omega) (hdrOK_gate h1 (by rw [h2]; decide)) _ ?_
  rw [h2]; rfl

/-! #### ArtPollReply -/

theorem ArtPollReply.write_read (q : ArtPollReply) :
    { pollReplyOf (binaryWrite q) (be16At (binaryWrite q) 14) with
      opCode := be16At (binaryWrite q) 8 } = q := by
  rw [← ArtPollReply.read_eq]
  have := readVals_encVals (GoStruct.layout ArtPollReply) (GoStruct.toVals q) []
  rw [List.append_nil] at this
  rw [binaryWrite, this]
  rfl

theorem ArtPollReply.marshal_eq (p : ArtPollReply) :
    p.marshalBinary = (p.finish, binaryWrite p.finish, none) := rfl

theorem ArtPollReply.write_eq (q : ArtPollReply) : binaryWrite q =
    q.id.val ++ (putBE16 q.opCode ++ (q.ipAddress.val ++ (putBE16 q.port ++ (putBE16 q.versionInfo ++
    ([q.netSwitch] ++ ([q.subSwitch] ++ (putBE16 q.oem ++ ([q.ubeaVersion] ++ ([q.status1] ++
    (q.estaManufacturer.val ++ (q.shortName.val ++ (q.longName.val ++ (q.nodeReport.val ++
    (putBE16 q.numPorts ++ (q.portTypes.val ++ (q.goodInput.val ++ (q.goodOutput.val ++
    (q.swIn.val ++ (q.swOut.val ++ ([q.swVideo] ++ ([q.swMacro] ++ ([q.swRemote] ++ (zeros 3 ++
    ([q.style] ++ (q.macaddress.val ++ (q.bindIP.val ++ ([q.bindIndex] ++ ([q.status2] ++
    (zeros 26 ++ []))))))))))))))))))))))))))))) := rfl

theorem ArtPollReply.image_eq (p : ArtPollReply) : binaryWrite p.finish = pollReplyImage p := by
  have hop : putBE16 (swapUint16 OpCode.opPollReply) = [0x00, 0x21] := by decide
  have hm : artNet.val = magic := rfl
  rw [ArtPollReply.write_eq]
  show artNet.val ++ (putBE16 (swapUint16 OpCode.opPollReply) ++ (p.ipAddress.val ++
    (putBE16 (swapUint16 p.port) ++ (putBE16 p.versionInfo ++
    ([p.netSwitch] ++ ([p.subSwitch] ++ (putBE16 p.oem ++ ([p.ubeaVersion] ++ ([p.status1] ++
    (p.estaManufacturer.val ++ (p.shortName.val ++ (p.longName.val ++ (p.nodeReport.val ++
    (putBE16 p.numPorts ++ (p.portTypes.val ++ (p.goodInput.val ++ (p.goodOutput.val ++
    (p.swIn.val ++ (p.swOut.val ++ ([p.swVideo] ++ ([p.swMacro] ++ ([p.swRemote] ++ (zeros 3 ++
    ([p.style] ++ (p.macaddress.val ++ (p.bindIP.val ++ ([p.bindIndex] ++ ([p.status2] ++
    (zeros 26 ++ []))))))))))))))))))))))))))))) = _
  rw [hop, hm, putBE16_swap, putBE16_be, putBE16_be, putBE16_be]
  unfold pollReplyImage
  simp only [List.append_assoc, List.append_nil, List.cons_append, List.nil_append]

/-- What the bytes of a marshalled ArtPollReply decode to. -/
theorem ArtPollReply.write_facts (p : ArtPollReply) :
    HdrOK (binaryWrite p.finish) ∧ opOf (binaryWrite p.finish) = OpCode.opPollReply ∧
    le16At (binaryWrite p.finish) 14 = p.port ∧ byteAt (binaryWrite p.finish) 200 = p.style ∧
    ∀ port, pollReplyOf (binaryWrite p.finish) port =
      { p with id := artNet, opCode := OpCode.opPollReply, port := port } := by
  have hr := ArtPollReply.write_read p.finish
  have h1 : arrAt (binaryWrite p.finish) 0 8 = artNet := congrArg ArtPollReply.id hr
  have h2 : be16At (binaryWrite p.finish) 8 = swapUint16 OpCode.opPollReply :=
    congrArg ArtPollReply.opCode hr
  have h3 : opOf (binaryWrite p.finish) = OpCode.opPollReply := by
    rw [opOf, ← swap_be16At, h2, swap_swap]
  have h4 : be16At (binaryWrite p.finish) 14 = swapUint16 p.port := congrArg ArtPollReply.port hr
  refine ⟨⟨h1, fun h => absurd h3 h⟩, h3, ?_, congrArg ArtPollReply.style hr, ?_⟩
  · rw [← swap_be16At, h4, swap_swap]
  · intro port
    have hq : ({ p with id := artNet, opCode := OpCode.opPollReply, port := port } : ArtPollReply) =
      { p.finish with opCode := OpCode.opPollReply, port := port } := rfl
    rw [hq]
    conv => rhs; rw [← hr]
    rw [← h3]
    rfl

theorem ArtPollReply.roundtrip (p : ArtPollReply)
    (hp : p.port = 6454 ∨ p.port = swapUint16 6454) (hs : p.style < 7) :
    unmarshal (binaryWrite p.finish) =
      .ok (some (.pollReply { p with id := artNet, opCode := OpCode.opPollReply, port := 6454 }),
        none) := by
  obtain ⟨h1, h2, h3, h4, h5⟩ := ArtPollReply.write_facts p
  have hl : (binaryWrite p.finish).length = 239 := binaryWrite_length _
  rw [← h5 6454]
  refine unmarshal_of_accepts _ _ (.pollReply _ ((headerOK_iff _).mpr ⟨by omega, h1⟩) h2 (by omega) ?_
    (by rw [h4]; exact hs))
  rw [← port_le_iff, ← port_be_iff, ← swap_le16At, h3]
  rcases hp with hp | hp
  · exact Or.inl hp
  · exact Or.inr (by rw [hp, swap_swap])

end Verif
