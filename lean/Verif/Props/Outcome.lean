import Verif.Lemmas.Outcome
import Verif.Props.Decode
/-
The result of Unmarshal for every datagram: C118, and with it exact forms of C19, C21 and C22.
-/
namespace Verif.Props
open Spec Packet Code

/-! ### C118 -/

/-- C118: the packet and the error that Unmarshal returns, for every datagram. -/
theorem C118_outcome (b : Bytes) : unmarshal b = .ok (resultOf b) := by
  unfold resultOf
  by_cases hs : b.length < 12
  · rw [if_pos hs, unmarshal_short b hs]
  rw [if_neg hs]
  have h12 : 12 ≤ b.length := by omega
  have hmag : arrAt b 0 8 = artNet ↔ b.take 8 = magic := by
    rw [artNet_magic, arrAt_val_take b 8 (by omega)]
  by_cases hm : b.take 8 = magic
  · rw [if_neg (by simp [hm])]
    have hm' := hmag.mpr hm
    by_cases h21 : opOf b = 0x0021
    · rw [if_pos h21]
      have hsv : seenVersion b = 0 := by rw [seenVersion, if_pos ((be16_pollReply_iff b).mpr h21)]
      have := unmarshal_version b h12 hm' ⟨by rw [h21]; decide, by rw [hsv]; decide⟩
      rw [this, hsv]
    · rw [if_neg h21]
      have hsv : seenVersion b = byteAt b 11 := by
        rw [seenVersion, if_neg (fun h => h21 ((be16_pollReply_iff b).mp h))]
      by_cases hv : opOf b ≠ 0x2100 ∧ byteAt b 11 < 14
      · rw [if_pos hv, unmarshal_version b h12 hm' ⟨hv.1, by rw [hsv]; exact hv.2⟩, hsv]
      · rw [if_neg hv]
        have hg : GateOK b := ⟨hm', fun ho => by
          rw [hsv]
          exact UInt8.not_lt.mp fun h => hv ⟨ho, h⟩⟩
        have hop {o : UInt16} {n : Nat} (hn : (opOf b).toNat = n) (ho : o.toNat = n) : opOf b = o :=
          UInt16.toNat_inj.mp (hn.trans ho.symm)
        unfold bodyOf
        split
        · rw [unmarshal_poll b h12 hg (hop ‹_› rfl), sized]; split <;> rfl
        · rw [unmarshal_pollReply b h12 hg (hop ‹_› rfl)]
          have h1 := port_le_iff b 14
          have h2 := port_be_iff b 14
          simp only [ne_eq, h1, h2]
          (repeat' split) <;> rfl
        · rw [unmarshal_diagData b h12 hg (hop ‹_› rfl), sized]; split <;> rfl
        · rw [unmarshal_command b h12 hg (hop ‹_› rfl)]
          simp only [esta_iff]
          (repeat' split) <;> rfl
        · rw [unmarshal_dmx b h12 hg (hop ‹_› rfl)]
          by_cases h1 : b.length < 18
          · simp only [if_pos h1]
          · simp only [if_neg h1]
            by_cases h2 : DmxLenOK b
            · rw [if_pos h2]
              unfold DmxLenOK at h2
              rw [if_pos h2]
            · rw [if_neg h2]
              unfold DmxLenOK at h2
              rw [if_neg h2]
        · rw [unmarshal_nzs b h12 hg (hop ‹_› rfl), sized]; split <;> rfl
        · rw [unmarshal_sync b h12 hg (hop ‹_› rfl), sized]; split <;> rfl
        · rw [unmarshal_address b h12 hg (hop ‹_› rfl), sized]; split <;> rfl
        · have ho : opOf b = 0x7000 := hop ‹_› rfl
          rw [unmarshal_gate b h12 hg, ho]
          rfl
        · rw [unmarshal_timeCode b h12 hg (hop ‹_› rfl), sized]; split <;> rfl
        · rw [unmarshal_trigger b h12 hg (hop ‹_› rfl), sized]; split <;> rfl
        · rw [unmarshal_ipProg b h12 hg (hop ‹_› rfl), sized]; split <;> rfl
        · rw [unmarshal_ipProgReply b h12 hg (hop ‹_› rfl), sized]; split <;> rfl
        · rename_i g1 g2 g3 g4 g5 g6 g7 g8 g9 g10 g11 g12 g13
          have hd := dispatch_other (opOf b) (by
            intro p hp
            rcases dispatch_ok_cases (opOf b) with ⟨e, he⟩ | ho
            · rw [he] at hp; cases hp
            · rcases ho with ho | ho | ho | ho | ho | ho | ho | ho | ho | ho | ho | ho
              · exact g1 (by rw [ho]; rfl)
              · exact g2 (by rw [ho]; rfl)
              · exact g3 (by rw [ho]; rfl)
              · exact g4 (by rw [ho]; rfl)
              · exact g5 (by rw [ho]; rfl)
              · exact g6 (by rw [ho]; rfl)
              · exact g7 (by rw [ho]; rfl)
              · exact g8 (by rw [ho]; rfl)
              · exact g10 (by rw [ho]; rfl)
              · exact g11 (by rw [ho]; rfl)
              · exact g12 (by rw [ho]; rfl)
              · exact g13 (by rw [ho]; rfl)) (fun ho => g9 (by rw [ho]; rfl))
          rw [unmarshal_gate b h12 hg, hd]
  · rw [if_pos hm]
    exact unmarshal_magic b h12 fun h => hm (hmag.mp h)

/-- An ArtPoll, one that is two bytes short, and one of version 13. -/
example : resultOf (magic ++ [0x00, 0x20, 0, 14, 0, 0]) = (some (.poll (pollOf (magic ++ [0x00, 0x20, 0, 14, 0, 0]))), none) ∧
    resultOf (magic ++ [0x00, 0x20, 0, 14]) = (some (.poll .new), some (.read .unexpectedEOF)) ∧
    resultOf (magic ++ [0x00, 0x20, 0, 13, 0, 0]) = (none, some (.incompatibleVersion 13)) := by
  refine ⟨rfl, rfl, rfl⟩

/-- An opcode without a decoder, an opcode that is not declared, and ArtInput. -/
example : resultOf (magic ++ [0x00, 0x80, 0, 14]) = (none, some (.notImplementedOpCode 0x8000)) ∧
    resultOf (magic ++ [0x01, 0x80, 0, 14]) = (none, some (.invalidOpCodeDispatch 0x8001)) ∧
    resultOf (magic ++ [0x00, 0x70, 0, 14]) = (none, some (.unimplemented 0x7000)) := by
  refine ⟨rfl, rfl, rfl⟩

/-! ### C19, C21, C22 -/

/-- C19, exactly: the datagrams that UnmarshalBinary of a packet object takes. -/
theorem C19_exact (p : AnyPacket) (b : Bytes) : (∃ q, p.unmarshalBinary b = .ok (q, none)) ↔ Takes p b := by
  have hmag : 8 ≤ b.length → (arrAt b 0 8 = artNet ↔ b.take 8 = magic) := fun hl => by
    rw [artNet_magic, arrAt_val_take b 8 hl]
  have hok : 12 ≤ b.length → opOf b ≠ 0x2100 → (HdrOK b ↔ HeaderOK b) := fun hl ho => by
    have hmag := hmag (by omega)
    exact ⟨fun h => ⟨hl, hmag.mp h.1, .inr (h.2 ho)⟩, fun h => ⟨hmag.mpr h.2.1, fun _ => h.2.2.resolve_left ho⟩⟩
  have fin {α : Type} (f : α → AnyPacket) (r : α × Option Err) :
      (∃ q, (Except.ok (f r.1, r.2) : Go (AnyPacket × Option Err)) = .ok (q, none)) ↔ r.2 = none := by
    obtain ⟨a, e⟩ := r
    cases e with
    | none => simp
    | some e => simp
  have short (hl : b.length < minSizeFor p) : ¬ ∃ q, p.unmarshalBinary b = .ok (q, none) := by
    obtain ⟨e, he⟩ := (C08_truncated_rejected b).1 p hl
    rw [he]
    simp
  by_cases hl : b.length < minSizeFor p
  · refine ⟨fun h => absurd h (short hl), fun h => ?_⟩
    cases p <;> simp only [Takes, minSizeFor, sizeFor] at h hl <;> omega
  have plain {o : OpCode} {n : Nat} {r : Prop} (hn : n ≤ b.length) (h12 : 12 ≤ n) (ho : o ≠ 0x2100)
      (h : r ↔ HdrOK b ∧ opOf b = o) : r ↔ HeaderOK b ∧ opOf b = o ∧ n ≤ b.length := by
    rw [h]
    by_cases hb : opOf b = o
    · rw [hok (by omega) (by rw [hb]; exact ho)]
      simp [hn]
    · simp [hb]
  cases p with
  | dmx p =>
    simp only [minSizeFor] at hl
    have he := ArtDMX.unmarshal_eq p b (by omega)
    rw [header_validate_eq] at he
    rw [dmx_any_of he]
    rw [fin]
    have hmag := hmag (by omega)
    unfold Takes
    simp only
    by_cases hm : b.take 8 = magic
    case neg => rw [if_pos (fun h => hm (hmag.mp h))]; simp [hm]
    rw [if_neg (fun h => h (hmag.mpr hm))]
    have hv : ((if be16At b 8 ≠ OpCode.opPollReply then arrAt b 10 2 else p.hdr.version) : Arr 2).get 1 =
        if opOf b = 0x0021 then p.hdr.version.get 1 else byteAt b 11 := by
      by_cases h21 : opOf b = 0x0021
      · rw [if_pos h21, if_neg (fun h => h ((be16_pollReply_iff b).mpr h21))]
      · rw [if_neg h21, if_pos (fun h => h21 ((be16_pollReply_iff b).mp h))]
        rfl
    rw [hv]
    generalize (if opOf b = 0x0021 then p.hdr.version.get 1 else byteAt b 11) = v
    by_cases ho : opOf b ≠ OpCode.opPollReply ∧ v < 14
    · rw [if_pos ho]
      have h1 : ¬ (opOf b = 0x2100 ∨ 14 ≤ v) := by
        rintro (h | h)
        · exact ho.1 h
        · exact UInt8.not_lt.mpr h ho.2
      simp [h1]
    · rw [if_neg ho]
      have h1 : opOf b = 0x2100 ∨ 14 ≤ v := by
        by_cases h2 : opOf b = 0x2100
        · exact .inl h2
        · exact .inr (UInt8.not_lt.mp fun h => ho ⟨h2, h⟩)
      simp only
      by_cases hk : DmxLenOK b
      · rw [if_pos hk]
        unfold DmxLenOK at hk
        simp only [hm, h1, true_and, true_iff]
        omega
      · rw [if_neg hk]
        unfold DmxLenOK at hk
        simp only [hm, h1, true_and]
        simp only [reduceCtorEq, false_iff]
        omega
  | pollReply p =>
    simp only [minSizeFor, sizeFor] at hl
    have he := ArtPollReply.unmarshal_eq p b (by omega)
    refine (fin .pollReply (p.unmarshalBinary b)).trans ?_
    rw [he]
    have h1 := port_le_iff b 14
    have h2 := port_be_iff b 14
    unfold Takes
    simp only [ne_eq, h1, h2]
    have h3 : 239 ≤ b.length := by omega
    rw [show OpCode.opPollReply = 0x2100 from rfl]
    by_cases g1 : opOf b = 0x2100
    case neg => simp [g1]
    rw [if_neg (fun h => h g1)]
    by_cases g2 : (byteAt b 14, byteAt b 15) = (0x36, 0x19) ∨ (byteAt b 14, byteAt b 15) = (0x19, 0x36)
    · rw [if_neg (fun h => g2.elim h.1 h.2)]
      by_cases g3 : 7 ≤ byteAt b 200
      · rw [if_pos g3]
        have : ¬ byteAt b 200 < 7 := UInt8.not_lt.mpr g3
        simp [this]
      · rw [if_neg g3]
        have : byteAt b 200 < 7 := UInt8.not_le.mp g3
        exact ⟨fun _ => ⟨g1, h3, g2, this⟩, fun _ => rfl⟩
    · rw [if_pos (show _ ∧ _ from ⟨fun h => g2 (.inl h), fun h => g2 (.inr h)⟩)]
      exact ⟨nofun, fun h => absurd h.2.2.1 g2⟩
  | command p =>
    simp only [minSizeFor, sizeFor] at hl
    refine (fin .command (p.unmarshalBinary b)).trans ?_
    rw [(ArtCommand.unmarshal_iff p b (by omega)).1, esta_iff]
    unfold Takes
    simp only
    rw [show OpCode.opCommand = 0x2400 from rfl]
    have h3 : 528 ≤ b.length := by omega
    by_cases hb : opOf b = 0x2400
    · rw [hok (by omega) (by rw [hb]; decide)]
      simp [hb, h3]
    · simp [hb]
  | poll p =>
    simp only [minSizeFor, sizeFor] at hl
    exact (fin .poll (p.unmarshalBinary b)).trans
      (plain (o := OpCode.opPoll) (n := 14) (by omega) (by decide) (by decide) (ArtPoll.unmarshal_iff p b (by omega)).1)
  | diagData p =>
    simp only [minSizeFor, sizeFor] at hl
    exact (fin .diagData (p.unmarshalBinary b)).trans
      (plain (o := OpCode.opDiagData) (n := 530) (by omega) (by decide) (by decide) (ArtDiagData.unmarshal_iff p b (by omega)).1)
  | nzs p =>
    simp only [minSizeFor, sizeFor] at hl
    exact (fin .nzs (p.unmarshalBinary b)).trans
      (plain (o := OpCode.opNzs) (n := 530) (by omega) (by decide) (by decide) (ArtNzs.unmarshal_iff p b (by omega)).1)
  | sync p =>
    simp only [minSizeFor, sizeFor] at hl
    exact (fin .sync (p.unmarshalBinary b)).trans
      (plain (o := OpCode.opSync) (n := 14) (by omega) (by decide) (by decide) (ArtSync.unmarshal_iff p b (by omega)).1)
  | address p =>
    simp only [minSizeFor, sizeFor] at hl
    exact (fin .address (p.unmarshalBinary b)).trans
      (plain (o := OpCode.opAddress) (n := 107) (by omega) (by decide) (by decide) (ArtAddress.unmarshal_iff p b (by omega)).1)
  | timeCode p =>
    simp only [minSizeFor, sizeFor] at hl
    exact (fin .timeCode (p.unmarshalBinary b)).trans
      (plain (o := OpCode.opTimeCode) (n := 19) (by omega) (by decide) (by decide) (ArtTimeCode.unmarshal_iff p b (by omega)).1)
  | trigger p =>
    simp only [minSizeFor, sizeFor] at hl
    exact (fin .trigger (p.unmarshalBinary b)).trans
      (plain (o := OpCode.opTrigger) (n := 530) (by omega) (by decide) (by decide) (ArtTrigger.unmarshal_iff p b (by omega)).1)
  | ipProg p =>
    simp only [minSizeFor, sizeFor] at hl
    exact (fin .ipProg (p.unmarshalBinary b)).trans
      (plain (o := OpCode.opIPProg) (n := 34) (by omega) (by decide) (by decide) (ArtIPProg.unmarshal_iff p b (by omega)).1)
  | ipProgReply p =>
    simp only [minSizeFor, sizeFor] at hl
    exact (fin .ipProgReply (p.unmarshalBinary b)).trans
      (plain (o := OpCode.opIPProgReply) (n := 34) (by omega) (by decide) (by decide) (ArtIPProgReply.unmarshal_iff p b (by omega)).1)

/-- Two bytes of data under the opcode 0x0021: taken by an object that has a version, and by no other. -/
example : Takes (.dmx { ArtDMX.new with hdr.version := Version.bytes })
      (magic ++ [0x21, 0x00, 0, 0, 0, 0, 0, 0, 0, 2, 7, 8]) ∧
    ¬ Takes (.dmx ArtDMX.new) (magic ++ [0x21, 0x00, 0, 14, 0, 0, 0, 0, 0, 2, 7, 8]) := by
  unfold Takes
  decide

/-- C21, exactly: the datagrams that Unmarshal rejects for their version. -/
theorem C21_exact (b : Bytes) (v : UInt8) : unmarshal b = .ok (none, some (.incompatibleVersion v)) ↔
    12 ≤ b.length ∧ b.take 8 = magic ∧
      ((opOf b = 0x0021 ∧ v = 0) ∨ (opOf b ≠ 0x0021 ∧ opOf b ≠ 0x2100 ∧ byteAt b 11 < 14 ∧ v = byteAt b 11)) := by
  rw [C118_outcome]
  unfold resultOf
  by_cases h1 : b.length < 12
  · rw [if_pos h1]
    exact ⟨fun h => (by cases h), fun h => (by omega)⟩
  rw [if_neg h1]
  by_cases h2 : b.take 8 = magic
  case neg => rw [if_pos h2]; simp [h2]
  rw [if_neg (fun h => h h2)]
  have h3 : 12 ≤ b.length := by omega
  by_cases h4 : opOf b = 0x0021
  · rw [if_pos h4]
    simp [h2, h3, h4, eq_comm]
  rw [if_neg h4]
  by_cases h5 : opOf b ≠ 0x2100 ∧ byteAt b 11 < 14
  · rw [if_pos h5]
    simp [h2, h3, h4, h5, eq_comm]
  · rw [if_neg h5]
    have h6 : ¬ (12 ≤ b.length ∧ b.take 8 = magic ∧
      ((opOf b = 0x0021 ∧ v = 0) ∨ (opOf b ≠ 0x0021 ∧ opOf b ≠ 0x2100 ∧ byteAt b 11 < 14 ∧ v = byteAt b 11))) := by
      rintro ⟨_, _, ⟨h, _⟩ | ⟨_, h, h', _⟩⟩
      · exact h4 h
      · exact h5 ⟨h, h'⟩
    refine ⟨fun h => ?_, fun h => absurd h h6⟩
    exfalso
    have h := (Except.ok.inj h)
    unfold bodyOf sized at h
    (repeat' split at h) <;> first | (cases h; done) | (simp only at h; split at h <;> cases h)

/-- A datagram with version 13, and one with version 269 whose low byte is 13. -/
example : unmarshal (magic ++ [0x00, 0x20, 0, 13, 0, 0]) = .ok (none, some (.incompatibleVersion 13)) ∧
    unmarshal (magic ++ [0x00, 0x20, 1, 13, 0, 0]) = .ok (none, some (.incompatibleVersion 13)) := ⟨rfl, rfl⟩

/-- C22, exactly: a packet comes with the error iff the header is in order and the opcode is that of a packet type. -/
theorem C22_exact (b : Bytes) (p : Option AnyPacket) (e : Err) (h : unmarshal b = .ok (p, some e)) :
    p ≠ none ↔ HeaderOK b ∧ ∃ q, opcodeFor q = opOf b := by
  constructor
  · intro hp
    by_cases hb : ¬ HeaderOK b ∨ ∀ q, opcodeFor q ≠ opOf b
    · exact absurd (C22_partial b p e h hb) hp
    · have h1 : HeaderOK b := Classical.byContradiction fun hn => hb (.inl hn)
      refine ⟨h1, Classical.byContradiction fun hn => hb (.inr fun q hq => hn ⟨q, hq⟩)⟩
  · rintro ⟨hh, q, hq⟩
    have hne : opOf b ≠ 0x0021 := by
      rw [← hq]
      cases q <;> simp only [opcodeFor] <;> decide
    obtain ⟨p', e', h1, _⟩ := (C07_partial b hh hne).2.1 ⟨q, hq⟩
    rw [h] at h1
    cases h1
    nofun

/-- An ArtPoll that is two bytes short. -/
example : unmarshal (magic ++ [0x00, 0x20, 0, 14]) = .ok (some (.poll .new), some (.read .unexpectedEOF)) ∧
    HeaderOK (magic ++ [0x00, 0x20, 0, 14]) := ⟨rfl, by decide⟩

end Verif.Props
