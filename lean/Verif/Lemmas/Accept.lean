import Verif.Lemmas.Unmarshal
import Verif.Spec.Accept
/-
Helper lemmas: Unmarshal accepts exactly `Spec.Accepts`.
-/
namespace Verif
open Spec Packet Code

theorem headerOK_iff (b : Bytes) : HeaderOK b ↔ 12 ≤ b.length ∧ HdrOK b := by
  constructor
  · intro ⟨h1, h2, h3⟩
    refine ⟨h1, (artNet_magic b).mpr (by rw [arrAt_val_take b 8 (by omega)]; exact h2), ?_⟩
    intro ho
    rcases h3 with h3 | h3
    · exact absurd h3 ho
    · exact h3
  · intro ⟨h1, h2, h3⟩
    refine ⟨h1, ?_, ?_⟩
    · rw [← arrAt_val_take b 8 (by omega)]; exact (artNet_magic b).mp h2
    · by_cases ho : opOf b = OpCode.opPollReply
      · exact Or.inl ho
      · exact Or.inr (h3 ho)

theorem ifEmpty_long {b : Bytes} (h : 12 ≤ b.length) :
    (if b.isEmpty then ReadErr.eof else ReadErr.unexpectedEOF) = .unexpectedEOF := by
  cases b with
  | nil => simp at h
  | cons => rfl

theorem unmarshal_poll (b : Bytes) (h : 12 ≤ b.length) (hg : GateOK b) (ho : opOf b = OpCode.opPoll) :
    unmarshal b = if b.length < 14 then .ok (some (.poll ArtPoll.new), some (.read .unexpectedEOF))
      else .ok (some (.poll (pollOf b)), none) := by
  have hd : dispatch OpCode.opPoll = .ok (.poll ArtPoll.new) := by rfl
  rw [unmarshal_gate b h hg, ho, hd]
  by_cases hl : b.length < 14
  · have : ArtPoll.new.unmarshalBinary b = _ := unmarshalPacket_short ArtPoll.new b hl
    simp only [AnyPacket.unmarshalBinary, this, hl, if_true, ifEmpty_long h]
  · have := (ArtPoll.unmarshal_iff ArtPoll.new b (by omega)).2 ⟨(gate_hdrOK hg).1, ho⟩
    simp only [AnyPacket.unmarshalBinary, this, hl, if_false]

theorem unmarshal_diagData (b : Bytes) (h : 12 ≤ b.length) (hg : GateOK b) (ho : opOf b = OpCode.opDiagData) :
    unmarshal b = if b.length < 530 then .ok (some (.diagData ArtDiagData.new), some (.read .unexpectedEOF))
      else .ok (some (.diagData (diagDataOf b)), none) := by
  have hd : dispatch OpCode.opDiagData = .ok (.diagData ArtDiagData.new) := by rfl
  rw [unmarshal_gate b h hg, ho, hd]
  by_cases hl : b.length < 530
  · have : ArtDiagData.new.unmarshalBinary b = _ := unmarshalPacket_short ArtDiagData.new b hl
    simp only [AnyPacket.unmarshalBinary, this, hl, if_true, ifEmpty_long h]
  · have := (ArtDiagData.unmarshal_iff ArtDiagData.new b (by omega)).2 ⟨(gate_hdrOK hg).1, ho⟩
    simp only [AnyPacket.unmarshalBinary, this, hl, if_false]

theorem unmarshal_nzs (b : Bytes) (h : 12 ≤ b.length) (hg : GateOK b) (ho : opOf b = OpCode.opNzs) :
    unmarshal b = if b.length < 530 then .ok (some (.nzs ArtNzs.new), some (.read .unexpectedEOF))
      else .ok (some (.nzs (nzsOf b)), none) := by
  have hd : dispatch OpCode.opNzs = .ok (.nzs ArtNzs.new) := by rfl
  rw [unmarshal_gate b h hg, ho, hd]
  by_cases hl : b.length < 530
  · have : ArtNzs.new.unmarshalBinary b = _ := unmarshalPacket_short ArtNzs.new b hl
    simp only [AnyPacket.unmarshalBinary, this, hl, if_true, ifEmpty_long h]
  · have := (ArtNzs.unmarshal_iff ArtNzs.new b (by omega)).2 ⟨(gate_hdrOK hg).1, ho⟩
    simp only [AnyPacket.unmarshalBinary, this, hl, if_false]

theorem unmarshal_sync (b : Bytes) (h : 12 ≤ b.length) (hg : GateOK b) (ho : opOf b = OpCode.opSync) :
    unmarshal b = if b.length < 14 then .ok (some (.sync ArtSync.new), some (.read .unexpectedEOF))
      else .ok (some (.sync (syncOf b)), none) := by
  have hd : dispatch OpCode.opSync = .ok (.sync ArtSync.new) := by rfl
  rw [unmarshal_gate b h hg, ho, hd]
  by_cases hl : b.length < 14
  · have : ArtSync.new.unmarshalBinary b = _ := unmarshalPacket_short ArtSync.new b hl
    simp only [AnyPacket.unmarshalBinary, this, hl, if_true, ifEmpty_long h]
  · have := (ArtSync.unmarshal_iff ArtSync.new b (by omega)).2 ⟨(gate_hdrOK hg).1, ho⟩
    simp only [AnyPacket.unmarshalBinary, this, hl, if_false]

theorem unmarshal_address (b : Bytes) (h : 12 ≤ b.length) (hg : GateOK b) (ho : opOf b = OpCode.opAddress) :
    unmarshal b = if b.length < 107 then .ok (some (.address ArtAddress.new), some (.read .unexpectedEOF))
      else .ok (some (.address (addressOf b)), none) := by
  have hd : dispatch OpCode.opAddress = .ok (.address ArtAddress.new) := by rfl
  rw [unmarshal_gate b h hg, ho, hd]
  by_cases hl : b.length < 107
  · have : ArtAddress.new.unmarshalBinary b = _ := unmarshalPacket_short ArtAddress.new b hl
    simp only [AnyPacket.unmarshalBinary, this, hl, if_true, ifEmpty_long h]
  · have := (ArtAddress.unmarshal_iff ArtAddress.new b (by omega)).2 ⟨(gate_hdrOK hg).1, ho⟩
    simp only [AnyPacket.unmarshalBinary, this, hl, if_false]

theorem unmarshal_timeCode (b : Bytes) (h : 12 ≤ b.length) (hg : GateOK b) (ho : opOf b = OpCode.opTimeCode) :
    unmarshal b = if b.length < 19 then .ok (some (.timeCode ArtTimeCode.new), some (.read .unexpectedEOF))
      else .ok (some (.timeCode (timeCodeOf b)), none) := by
  have hd : dispatch OpCode.opTimeCode = .ok (.timeCode ArtTimeCode.new) := by rfl
  rw [unmarshal_gate b h hg, ho, hd]
  by_cases hl : b.length < 19
  · have : ArtTimeCode.new.unmarshalBinary b = _ := unmarshalPacket_short ArtTimeCode.new b hl
    simp only [AnyPacket.unmarshalBinary, this, hl, if_true, ifEmpty_long h]
  · have := (ArtTimeCode.unmarshal_iff ArtTimeCode.new b (by omega)).2 ⟨(gate_hdrOK hg).1, ho⟩
    simp only [AnyPacket.unmarshalBinary, this, hl, if_false]

theorem unmarshal_trigger (b : Bytes) (h : 12 ≤ b.length) (hg : GateOK b) (ho : opOf b = OpCode.opTrigger) :
    unmarshal b = if b.length < 530 then .ok (some (.trigger ArtTrigger.new), some (.read .unexpectedEOF))
      else .ok (some (.trigger (triggerOf b)), none) := by
  have hd : dispatch OpCode.opTrigger = .ok (.trigger ArtTrigger.new) := by rfl
  rw [unmarshal_gate b h hg, ho, hd]
  by_cases hl : b.length < 530
  · have : ArtTrigger.new.unmarshalBinary b = _ := unmarshalPacket_short ArtTrigger.new b hl
    simp only [AnyPacket.unmarshalBinary, this, hl, if_true, ifEmpty_long h]
  · have := (ArtTrigger.unmarshal_iff ArtTrigger.new b (by omega)).2 ⟨(gate_hdrOK hg).1, ho⟩
    simp only [AnyPacket.unmarshalBinary, this, hl, if_false]

theorem unmarshal_ipProg (b : Bytes) (h : 12 ≤ b.length) (hg : GateOK b) (ho : opOf b = OpCode.opIPProg) :
    unmarshal b = if b.length < 34 then .ok (some (.ipProg ArtIPProg.new), some (.read .unexpectedEOF))
      else .ok (some (.ipProg (ipProgOf b)), none) := by
  have hd : dispatch OpCode.opIPProg = .ok (.ipProg ArtIPProg.new) := by rfl
  rw [unmarshal_gate b h hg, ho, hd]
  by_cases hl : b.length < 34
  · have : ArtIPProg.new.unmarshalBinary b = _ := unmarshalPacket_short ArtIPProg.new b hl
    simp only [AnyPacket.unmarshalBinary, this, hl, if_true, ifEmpty_long h]
  · have := (ArtIPProg.unmarshal_iff ArtIPProg.new b (by omega)).2 ⟨(gate_hdrOK hg).1, ho⟩
    simp only [AnyPacket.unmarshalBinary, this, hl, if_false]

theorem unmarshal_ipProgReply (b : Bytes) (h : 12 ≤ b.length) (hg : GateOK b) (ho : opOf b = OpCode.opIPProgReply) :
    unmarshal b = if b.length < 34 then .ok (some (.ipProgReply ArtIPProgReply.new), some (.read .unexpectedEOF))
      else .ok (some (.ipProgReply (ipProgReplyOf b)), none) := by
  have hd : dispatch OpCode.opIPProgReply = .ok (.ipProgReply ArtIPProgReply.new) := by rfl
  rw [unmarshal_gate b h hg, ho, hd]
  by_cases hl : b.length < 34
  · have : ArtIPProgReply.new.unmarshalBinary b = _ := unmarshalPacket_short ArtIPProgReply.new b hl
    simp only [AnyPacket.unmarshalBinary, this, hl, if_true, ifEmpty_long h]
  · have := (ArtIPProgReply.unmarshal_iff ArtIPProgReply.new b (by omega)).2 ⟨(gate_hdrOK hg).1, ho⟩
    simp only [AnyPacket.unmarshalBinary, this, hl, if_false]

theorem unmarshal_command (b : Bytes) (h : 12 ≤ b.length) (hg : GateOK b)
    (ho : opOf b = OpCode.opCommand) :
    unmarshal b = if b.length < 528 then
        .ok (some (.command ArtCommand.new), some (.read .unexpectedEOF))
      else if arrAt b 12 2 = ⟨[0xff, 0xff], rfl⟩ then .ok (some (.command (commandOf b)), none)
      else .ok (some (.command (commandOf b)), some .invalidPacket) := by
  have hd : dispatch OpCode.opCommand = .ok (.command ArtCommand.new) := by rfl
  rw [unmarshal_gate b h hg, ho, hd]
  by_cases hl : b.length < 528
  · have : ArtCommand.new.unmarshalBinary b = _ := unmarshalPacket_short ArtCommand.new b hl
    simp only [AnyPacket.unmarshalBinary, this, hl, if_true, ifEmpty_long h]
  · by_cases he : arrAt b 12 2 = ⟨[0xff, 0xff], rfl⟩
    · have := (ArtCommand.unmarshal_iff ArtCommand.new b (by omega)).2 ⟨(gate_hdrOK hg).1, ho, he⟩
      simp only [AnyPacket.unmarshalBinary, this, hl, if_false, he, if_true]
    · have := ArtCommand.unmarshal_esta ArtCommand.new b (by omega) (gate_hdrOK hg).1 ho he
      simp only [AnyPacket.unmarshalBinary, this, hl, if_false, he]

theorem unmarshal_pollReply (b : Bytes) (h : 12 ≤ b.length) (hg : GateOK b)
    (ho : opOf b = OpCode.opPollReply) :
    unmarshal b = if b.length < 239 then
        .ok (some (.pollReply ArtPollReply.new), some (.read .unexpectedEOF))
      else if le16At b 14 ≠ 6454 ∧ be16At b 14 ≠ 6454 then
        .ok (some (.pollReply (pollReplyOf b (be16At b 14))), some (.invalidPort (be16At b 14)))
      else if 7 ≤ byteAt b 200 then
        .ok (some (.pollReply (pollReplyOf b 6454)), some .invalidStyleCode)
      else .ok (some (.pollReply (pollReplyOf b 6454)), none) := by
  have hd : dispatch OpCode.opPollReply = .ok (.pollReply ArtPollReply.new) := by rfl
  rw [unmarshal_gate b h hg, ho, hd]
  by_cases hl : b.length < 239
  · have : ArtPollReply.new.unmarshalBinary b = _ := unmarshalPacket_short ArtPollReply.new b hl
    simp only [AnyPacket.unmarshalBinary, this, hl, if_true, ifEmpty_long h]
  · have := ArtPollReply.unmarshal_eq ArtPollReply.new b (by omega)
    simp only [ho, ne_eq, not_true_eq_false, if_false] at this
    simp only [AnyPacket.unmarshalBinary, this, hl, if_false]
    by_cases h2 : le16At b 14 = 6454 <;> by_cases h3 : be16At b 14 = 6454 <;>
      by_cases h4 : 7 ≤ byteAt b 200 <;> simp [h2, h3, h4]

theorem zero_get {n : Nat} (i : Fin n) : (Arr.zero n).get i = 0 := by simp [Arr.get, Arr.zero]

theorem unmarshal_dmx (b : Bytes) (h : 12 ≤ b.length) (hg : GateOK b) (ho : opOf b = OpCode.opDMX) :
    unmarshal b = if b.length < 18 then .ok (some (.dmx ArtDMX.new), some .invalidPacket)
      else if DmxLenOK b then .ok (some (.dmx (dmxOf b)), none)
      else .ok (some (.dmx { dmxOf b with data := Arr.zero 512 }), some .invalidPacket) := by
  have hd : dispatch OpCode.opDMX = .ok (.dmx ArtDMX.new) := by rfl
  rw [unmarshal_gate b h hg, ho, hd]
  by_cases hl : b.length < 18
  · simp only [AnyPacket.unmarshalBinary, ArtDMX.unmarshal_short _ b hl, hl, if_true, bind, Except.bind]
    rfl
  · have hk := (gate_hdrOK hg).1
    have hne : be16At b 8 ≠ OpCode.opPollReply := fun hc => by
      have := (be16_pollReply_iff b).mp hc
      exact (gate_hdrOK hg).2 this
    have := ArtDMX.unmarshal_eq ArtDMX.new b (by omega)
    rw [if_pos hne, (header_validate_ok b).2 hk] at this
    simp only [AnyPacket.unmarshalBinary, this, hl, if_false, bind, Except.bind, pure, Except.pure]
    by_cases hm : DmxLenOK b
    · simp only [hm, if_true]
      have hz : ∀ i, ArtDMX.new.data.get i = 0 := fun i => zero_get i
      simp only [hz]
      rfl
    · simp only [hm, if_false]
      rfl

theorem unmarshal_undispatched (b : Bytes) (h : 12 ≤ b.length) (hg : GateOK b) (e : Err)
    (hd : dispatch (opOf b) = .error e) : unmarshal b = .ok (none, some e) := by
  rw [unmarshal_gate b h hg, hd]

/-- The opcodes that have a decoder. -/
theorem dispatch_ok_cases (o : OpCode) : (∃ e, dispatch o = .error e) ∨
    (o = OpCode.opPoll ∨ o = OpCode.opPollReply ∨ o = OpCode.opDiagData ∨ o = OpCode.opCommand ∨
      o = OpCode.opDMX ∨ o = OpCode.opNzs ∨ o = OpCode.opSync ∨ o = OpCode.opAddress ∨
      o = OpCode.opTimeCode ∨ o = OpCode.opTrigger ∨ o = OpCode.opIPProg ∨
      o = OpCode.opIPProgReply) := by
  by_cases hn : (o = OpCode.opPoll ∨ o = OpCode.opPollReply ∨ o = OpCode.opDiagData ∨
      o = OpCode.opCommand ∨
      o = OpCode.opDMX ∨ o = OpCode.opNzs ∨ o = OpCode.opSync ∨ o = OpCode.opAddress ∨
      o = OpCode.opTimeCode ∨ o = OpCode.opTrigger ∨ o = OpCode.opIPProg ∨
      o = OpCode.opIPProgReply)
  · exact Or.inr hn
  · left
    simp only [not_or] at hn
    obtain ⟨h1, h2, h3, h4, h5, h6, h7, h8, h9, h10, h11, h12⟩ := hn
    simp only [dispatch, h1, h2, h3, h4, h5, h6, h7, h8, h9, h10, h11, h12, if_false]
    split
    · exact ⟨_, rfl⟩
    · split <;> exact ⟨_, rfl⟩

theorem dmxLen_iff (b : Bytes) : (18 ≤ b.length ∧ DmxLenOK b) ↔
    (18 + (be16At b 16).toNat ≤ b.length ∧ 2 ≤ (be16At b 16).toNat ∧ (be16At b 16).toNat ≤ 512 ∧
      (be16At b 16).toNat % 2 = 0) := by
  unfold DmxLenOK; omega

theorem port_le_iff (b : Bytes) (o : Nat) :
    le16At b o = 6454 ↔ (byteAt b o, byteAt b (o + 1)) = (0x36, 0x19) := by
  have h1 := (byteAt b o).toNat_lt
  have h2 := (byteAt b (o + 1)).toNat_lt
  simp only [le16At, ← UInt16.toNat_inj, Prod.mk.injEq, ← UInt8.toNat_inj, UInt16.toNat_ofNat',
    UInt16.reduceToNat, UInt8.reduceToNat]
  omega

theorem port_be_iff (b : Bytes) (o : Nat) :
    be16At b o = 6454 ↔ (byteAt b o, byteAt b (o + 1)) = (0x19, 0x36) := by
  have h1 := (byteAt b o).toNat_lt
  have h2 := (byteAt b (o + 1)).toNat_lt
  simp only [be16At, ← UInt16.toNat_inj, Prod.mk.injEq, ← UInt8.toNat_inj, UInt16.toNat_ofNat',
    UInt16.reduceToNat, UInt8.reduceToNat]
  omega

theorem esta_iff (b : Bytes) :
    arrAt b 12 2 = ⟨[0xff, 0xff], rfl⟩ ↔ (byteAt b 12, byteAt b 13) = (0xff, 0xff) := by
  rw [arrAt2]; simp

/-- Unmarshal never panics and accepts exactly `Accepts`. -/
theorem unmarshal_total (b : Bytes) : ∃ r, unmarshal b = .ok r := by
  by_cases h : b.length < 12
  · exact ⟨_, unmarshal_short b h⟩
  · have h : 12 ≤ b.length := by omega
    by_cases hg : GateOK b
    · rcases dispatch_ok_cases (opOf b) with ⟨e, he⟩ | ho
      · exact ⟨_, unmarshal_undispatched b h hg e he⟩
      · rcases ho with ho | ho | ho | ho | ho | ho | ho | ho | ho | ho | ho | ho
        · rw [unmarshal_poll b h hg ho]; (repeat' split) <;> exact ⟨_, rfl⟩
        · rw [unmarshal_pollReply b h hg ho]; (repeat' split) <;> exact ⟨_, rfl⟩
        · rw [unmarshal_diagData b h hg ho]; (repeat' split) <;> exact ⟨_, rfl⟩
        · rw [unmarshal_command b h hg ho]; (repeat' split) <;> exact ⟨_, rfl⟩
        · rw [unmarshal_dmx b h hg ho]; (repeat' split) <;> exact ⟨_, rfl⟩
        · rw [unmarshal_nzs b h hg ho]; (repeat' split) <;> exact ⟨_, rfl⟩
        · rw [unmarshal_sync b h hg ho]; (repeat' split) <;> exact ⟨_, rfl⟩
        · rw [unmarshal_address b h hg ho]; (repeat' split) <;> exact ⟨_, rfl⟩
        · rw [unmarshal_timeCode b h hg ho]; (repeat' split) <;> exact ⟨_, rfl⟩
        · rw [unmarshal_trigger b h hg ho]; (repeat' split) <;> exact ⟨_, rfl⟩
        · rw [unmarshal_ipProg b h hg ho]; (repeat' split) <;> exact ⟨_, rfl⟩
        · rw [unmarshal_ipProgReply b h hg ho]; (repeat' split) <;> exact ⟨_, rfl⟩
    · obtain ⟨e, he⟩ := unmarshal_nogate b h hg
      exact ⟨_, he⟩

theorem accepts_of_unmarshal (b : Bytes) (p : AnyPacket) (hu : unmarshal b = .ok (some p, none)) :
    Accepts b p := by
  by_cases h : b.length < 12
  · rw [unmarshal_short b h] at hu; simp at hu
  · have h : 12 ≤ b.length := by omega
    by_cases hg : GateOK b
    · have hh : HeaderOK b := (headerOK_iff b).mpr ⟨h, (gate_hdrOK hg).1⟩
      rcases dispatch_ok_cases (opOf b) with ⟨e, he⟩ | ho
      · rw [unmarshal_undispatched b h hg e he] at hu; simp at hu
      · rcases ho with ho | ho | ho | ho | ho | ho | ho | ho | ho | ho | ho | ho
        · rw [unmarshal_poll b h hg ho] at hu
          split at hu
          · simp at hu
          · simp at hu; subst hu; exact .poll b hh ho (by omega)
        · rw [unmarshal_pollReply b h hg ho] at hu
          split at hu
          · simp at hu
          · split at hu
            · simp at hu
            · rename_i hp
              split at hu
              · simp at hu
              · rename_i hs
                simp at hu; subst hu
                refine .pollReply b hh ho (by omega) ?_ (UInt8.not_le.mp hs)
                rw [← port_le_iff, ← port_be_iff]
                by_cases hp' : le16At b 14 = 6454
                · exact Or.inl hp'
                · by_cases hp'' : be16At b 14 = 6454
                  · exact Or.inr hp''
                  · exact absurd ⟨hp', hp''⟩ hp
        · rw [unmarshal_diagData b h hg ho] at hu
          split at hu
          · simp at hu
          · simp at hu; subst hu; exact .diagData b hh ho (by omega)
        · rw [unmarshal_command b h hg ho] at hu
          split at hu
          · simp at hu
          · split at hu
            · rename_i he
              simp at hu; subst hu
              exact .command b hh ho (by omega) ((esta_iff b).mp he)
            · simp at hu
        · rw [unmarshal_dmx b h hg ho] at hu
          split at hu
          · simp at hu
          · split at hu
            · rename_i he
              simp at hu; subst hu
              have := (dmxLen_iff b).mp ⟨by omega, he⟩
              exact .dmx b hh ho this.1 this.2.1 this.2.2.1 this.2.2.2
            · simp at hu
        · rw [unmarshal_nzs b h hg ho] at hu
          split at hu
          · simp at hu
          · simp at hu; subst hu; exact .nzs b hh ho (by omega)
        · rw [unmarshal_sync b h hg ho] at hu
          split at hu
          · simp at hu
          · simp at hu; subst hu; exact .sync b hh ho (by omega)
        · rw [unmarshal_address b h hg ho] at hu
          split at hu
          · simp at hu
          · simp at hu; subst hu; exact .address b hh ho (by omega)
        · rw [unmarshal_timeCode b h hg ho] at hu
          split at hu
          · simp at hu
          · simp at hu; subst hu; exact .timeCode b hh ho (by omega)
        · rw [unmarshal_trigger b h hg ho] at hu
          split at hu
          · simp at hu
          · simp at hu; subst hu; exact .trigger b hh ho (by omega)
        · rw [unmarshal_ipProg b h hg ho] at hu
          split at hu
          · simp at hu
          · simp at hu; subst hu; exact .ipProg b hh ho (by omega)
        · rw [unmarshal_ipProgReply b h hg ho] at hu
          split at hu
          · simp at hu
          · simp at hu; subst hu; exact .ipProgReply b hh ho (by omega)
    · obtain ⟨e, he⟩ := unmarshal_nogate b h hg
      rw [he] at hu; simp at hu

theorem gate_of_headerOK {b : Bytes} (hh : HeaderOK b) (ho : opOf b ≠ 0x0021) :
    12 ≤ b.length ∧ GateOK b :=
  ⟨hh.1, hdrOK_gate ((headerOK_iff b).mp hh).2 ho⟩

theorem unmarshal_of_accepts (b : Bytes) (p : AnyPacket) (ha : Accepts b p) :
    unmarshal b = .ok (some p, none) := by
  cases ha with
  | poll hh ho hl =>
    obtain ⟨h, hg⟩ := gate_of_headerOK hh (by rw [ho]; decide)
    rw [unmarshal_poll b h hg ho, if_neg (by omega)]
  | pollReply hh ho hl hp hs =>
    obtain ⟨h, hg⟩ := gate_of_headerOK hh (by rw [ho]; decide)
    rw [← port_le_iff, ← port_be_iff] at hp
    have hp' : ¬ (le16At b 14 ≠ 6454 ∧ be16At b 14 ≠ 6454) := by
      rintro ⟨h1, h2⟩; rcases hp with hp | hp <;> contradiction
    rw [unmarshal_pollReply b h hg ho, if_neg (by omega), if_neg hp', if_neg (UInt8.not_le.mpr hs)]
  | diagData hh ho hl =>
    obtain ⟨h, hg⟩ := gate_of_headerOK hh (by rw [ho]; decide)
    rw [unmarshal_diagData b h hg ho, if_neg (by omega)]
  | command hh ho hl he =>
    obtain ⟨h, hg⟩ := gate_of_headerOK hh (by rw [ho]; decide)
    rw [unmarshal_command b h hg ho, if_neg (by omega), if_pos ((esta_iff b).mpr he)]
  | dmx hh ho h1 h2 h3 h4 =>
    obtain ⟨h, hg⟩ := gate_of_headerOK hh (by rw [ho]; decide)
    have := (dmxLen_iff b).mpr ⟨h1, h2, h3, h4⟩
    rw [unmarshal_dmx b h hg ho, if_neg (by omega), if_pos this.2]
  | nzs hh ho hl =>
    obtain ⟨h, hg⟩ := gate_of_headerOK hh (by rw [ho]; decide)
    rw [unmarshal_nzs b h hg ho, if_neg (by omega)]
  | sync hh ho hl =>
    obtain ⟨h, hg⟩ := gate_of_headerOK hh (by rw [ho]; decide)
    rw [unmarshal_sync b h hg ho, if_neg (by omega)]
  | address hh ho hl =>
    obtain ⟨h, hg⟩ := gate_of_headerOK hh (by rw [ho]; decide)
    rw [unmarshal_address b h hg ho, if_neg (by omega)]
  | timeCode hh ho hl =>
    obtain ⟨h, hg⟩ := gate_of_headerOK hh (by rw [ho]; decide)
    rw [unmarshal_timeCode b h hg ho, if_neg (by omega)]
  | trigger hh ho hl =>
    obtain ⟨h, hg⟩ := gate_of_headerOK hh (by rw [ho]; decide)
    rw [unmarshal_trigger b h hg ho, if_neg (by omega)]
  | ipProg hh ho hl =>
    obtain ⟨h, hg⟩ := gate_of_headerOK hh (by rw [ho]; decide)
    rw [unmarshal_ipProg b h hg ho, if_neg (by omega)]
  | ipProgReply hh ho hl =>
    obtain ⟨h, hg⟩ := gate_of_headerOK hh (by rw [ho]; decide)
    rw [unmarshal_ipProgReply b h hg ho, if_neg (by omega)]

theorem unmarshal_iff_accepts (b : Bytes) (p : AnyPacket) :
    unmarshal b = .ok (some p, none) ↔ Accepts b p :=
  ⟨accepts_of_unmarshal b p, unmarshal_of_accepts b p⟩

end Verif
