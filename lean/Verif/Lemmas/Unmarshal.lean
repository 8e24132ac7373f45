import Verif.Lemmas.Decode
/-
Helper lemmas: ArtDMX decoding and the top-level Unmarshal in terms of absolute offsets.
-/
namespace Verif
open Spec Packet Code

theorem be16At_take (b : Bytes) (n o : Nat) (h : o + 1 < n) : be16At (b.take n) o = be16At b o := by
  simp only [be16At]; rw [byteAt_take _ _ _ (by omega), byteAt_take _ _ _ (by omega)]

theorem arrAt_take (b : Bytes) (m o n : Nat) (h : o + n ≤ m) : arrAt (b.take m) o n = arrAt b o n := by
  ext1
  simp only [arrAt]
  congr 1
  funext i
  exact byteAt_take _ _ _ (by omega)

theorem get_eq_byteAt {n : Nat} (a : Arr n) (i : Fin n) : a.get i = byteAt a.val i := by
  simp [Arr.get, byteAt, a.len]

theorem be16At_eq_mul (b : Bytes) (o : Nat) :
    (byteAt b o).toUInt16 * 256 + (byteAt b (o + 1)).toUInt16 = be16At b o := by
  apply UInt16.toNat_inj.mp
  have ha := (byteAt b o).toNat_lt
  have hb := (byteAt b (o + 1)).toNat_lt
  simp only [be16At, UInt16.toNat_add, UInt16.toNat_mul, UInt8.toNat_toUInt16, UInt16.toNat_ofNat',
    UInt16.reduceToNat]
  omega

/-- `copy(p.Data[0:l], b[18:18+l])` -/
theorem copyPrefix_eq {n : Nat} (a : Arr n) (l : Nat) (b : Bytes) (hl : l ≤ n) (hb : 18 + l ≤ b.length) :
    a.copyPrefix l ((b.take (18 + l)).drop 18) =
      .ok ⟨List.ofFn fun i : Fin n => if i.val < l then byteAt b (18 + i) else a.get i,
        List.length_ofFn⟩ := by
  simp only [Arr.copyPrefix, hl, if_true]
  congr 1
  ext1
  apply List.ext_getElem
  · simp only [List.length_append, copyInto_length, List.length_ofFn]
    simp only [List.length_take, List.length_drop, a.len]; omega
  · intro i h1 h2
    have hi : i < n := by simpa [List.length_ofFn] using h2
    have hal := a.len
    simp only [List.getElem_ofFn, Arr.get]
    by_cases hil : i < l
    · simp only [hil, if_true]
      rw [List.getElem_append_left (by rw [copyInto_length]; simp; omega)]
      have hib : 18 + i < b.length := by omega
      simp only [copyInto, byteAt, List.getElem?_eq_getElem hib, Option.getD_some]
      rw [List.getElem_append_left (by simp; omega)]
      simp
    · simp only [hil, if_false]
      rw [List.getElem_append_right (by rw [copyInto_length]; simp; omega)]
      simp only [List.getElem_drop]
      congr 1
      rw [copyInto_length]; simp; omega

/-- Length condition checked by ArtDMX.UnmarshalBinary. -/
def DmxLenOK (b : Bytes) : Prop :=
  (be16At b 16).toNat + 18 ≤ b.length ∧ 2 ≤ (be16At b 16).toNat ∧ (be16At b 16).toNat ≤ 512 ∧
    (be16At b 16).toNat % 2 = 0

instance (b : Bytes) : Decidable (DmxLenOK b) := by unfold DmxLenOK; infer_instance

/-- Complete description of ArtDMX.UnmarshalBinary. -/
theorem ArtDMX.unmarshal_eq (p : ArtDMX) (b : Bytes) (h : 18 ≤ b.length) :
    p.unmarshalBinary b = .ok (
      match Header.validate ⟨arrAt b 0 8, be16At b 8,
        if be16At b 8 ≠ OpCode.opPollReply then arrAt b 10 2 else p.hdr.version⟩ with
      | (hd, some e) => ({ p with hdr := hd }, some e)
      | (hd, none) =>
        if DmxLenOK b then
          ({ dmxOf b with
              hdr := hd
              data := ⟨List.ofFn fun i : Fin 512 =>
                if i.val < (be16At b 16).toNat then byteAt b (18 + i) else p.data.get i,
                List.length_ofFn⟩ }, none)
        else ({ dmxOf b with hdr := hd, data := p.data }, some .invalidPacket)) := by
  have h' : ¬ b.length < 18 := by omega
  simp only [ArtDMX.unmarshalBinary, h', if_false]
  rw [slice_ok b 0 12 (by omega) (by omega)]
  have hh := header_unmarshal_eq p.hdr (b.take 12) (by simp; omega)
  rw [arrAt_take _ _ _ _ (by omega), arrAt_take _ _ _ _ (by omega), be16At_take _ _ _ (by omega)] at hh
  simp only [bind, Except.bind, List.drop_zero, hh]
  generalize Header.validate _ = r
  obtain ⟨hd, e⟩ := r
  cases e with
  | some e => rfl
  | none =>
    simp only [idx_ok b 12 (by omega), idx_ok b 13 (by omega), idx_ok b 14 (by omega),
      idx_ok b 15 (by omega), idx_ok b 16 (by omega), idx_ok b 17 (by omega), pure, Except.pure,
      be16At_eq_mul b 16]
    by_cases hk : DmxLenOK b
    · have hc : ¬ (b.length < (be16At b 16).toNat + 18 ∨ (be16At b 16).toNat < 2 ∨
          (be16At b 16).toNat > 512 ∨ (be16At b 16).toNat % 2 ≠ 0) := by
        unfold DmxLenOK at hk; omega
      simp only [hk, hc, if_true, if_false]
      unfold DmxLenOK at hk
      rw [slice_ok b 18 _ (by omega) (by omega)]
      simp only
      rw [copyPrefix_eq _ _ _ (by omega) (by omega)]
      rfl
    · have hc : (b.length < (be16At b 16).toNat + 18 ∨ (be16At b 16).toNat < 2 ∨
          (be16At b 16).toNat > 512 ∨ (be16At b 16).toNat % 2 ≠ 0) := by
        unfold DmxLenOK at hk; omega
      simp only [hk, hc, if_true, if_false]
      rfl

theorem ArtDMX.unmarshal_short (p : ArtDMX) (b : Bytes) (h : b.length < 18) :
    p.unmarshalBinary b = .ok (p, some .invalidPacket) := by
  simp [ArtDMX.unmarshalBinary, h]

/-! ### Unmarshal -/

/-- The header check of Unmarshal (it differs from `HdrOK` at opcode 0x0021, see `seenVersion`). -/
def GateOK (b : Bytes) : Prop :=
  arrAt b 0 8 = artNet ∧ (opOf b ≠ OpCode.opPollReply → 14 ≤ seenVersion b)

instance (b : Bytes) : Decidable (GateOK b) := by unfold GateOK; infer_instance

theorem be16_pollReply_iff (b : Bytes) : be16At b 8 = OpCode.opPollReply ↔ opOf b = 0x0021 := by
  rw [opOf, ← swap_be16At, swap_eq_iff]
  have : swapUint16 0x0021 = OpCode.opPollReply := by decide
  rw [this]

theorem gate_hdrOK {b : Bytes} (h : GateOK b) : HdrOK b ∧ opOf b ≠ 0x0021 := by
  obtain ⟨h1, h2⟩ := h
  have h3 : opOf b ≠ 0x0021 := by
    intro h3
    have := h2 (by rw [h3]; decide)
    rw [seenVersion, if_pos ((be16_pollReply_iff b).mpr h3)] at this
    exact absurd this (by decide)
  refine ⟨⟨h1, fun ho => ?_⟩, h3⟩
  have := h2 ho
  rwa [seenVersion, if_neg (fun h => h3 ((be16_pollReply_iff b).mp h))] at this

theorem hdrOK_gate {b : Bytes} (h : HdrOK b) (h3 : opOf b ≠ 0x0021) : GateOK b := by
  refine ⟨h.1, fun ho => ?_⟩
  rw [seenVersion, if_neg (fun h => h3 ((be16_pollReply_iff b).mp h))]
  exact h.2 ho

theorem unmarshal_short (b : Bytes) (h : b.length < 12) :
    unmarshal b = .ok (none, some .incorrectHeaderLength) := by
  simp only [unmarshal, header_unmarshal_short _ b h, bind, Except.bind]; rfl

theorem unmarshal_magic (b : Bytes) (h : 12 ≤ b.length) (hm : arrAt b 0 8 ≠ artNet) :
    unmarshal b = .ok (none, some .invalidPacket) := by
  simp only [unmarshal, header_unmarshal_eq _ b h, bind, Except.bind, header_validate_eq, hm,
    ne_eq, not_false_eq_true, if_true]
  rfl

theorem seenVersion_eq (b : Bytes) :
    Arr.get (if be16At b 8 ≠ OpCode.opPollReply then arrAt b 10 2 else Header.zero.version) 1 =
      seenVersion b := by
  by_cases h : be16At b 8 = OpCode.opPollReply <;> simp [h, seenVersion] <;> rfl

theorem unmarshal_version (b : Bytes) (h : 12 ≤ b.length) (hm : arrAt b 0 8 = artNet)
    (hv : opOf b ≠ OpCode.opPollReply ∧ seenVersion b < 14) :
    unmarshal b = .ok (none, some (.incompatibleVersion (seenVersion b))) := by
  simp only [unmarshal, header_unmarshal_eq _ b h, bind, Except.bind, header_validate_eq,
    seenVersion_eq]
  simp only [hm, ne_eq, not_true_eq_false, if_false]
  rw [if_pos hv]
  rfl

theorem unmarshal_gate (b : Bytes) (h : 12 ≤ b.length) (hg : GateOK b) :
    unmarshal b = match dispatch (opOf b) with
      | .error e => .ok (none, some e)
      | .ok p => match p.unmarshalBinary b with
        | .ok (p, e) => .ok (some p, e)
        | .error f => .error f := by
  have hv : ¬ (opOf b ≠ OpCode.opPollReply ∧ seenVersion b < 14) := by
    intro ⟨h1, h2⟩
    exact absurd h2 (UInt8.not_lt.mpr (hg.2 h1))
  simp only [unmarshal, header_unmarshal_eq _ b h, bind, Except.bind, header_validate_eq,
    seenVersion_eq]
  simp only [hg.1, ne_eq, not_true_eq_false, if_false]
  rw [if_neg hv]
  simp only
  cases dispatch (opOf b) with
  | error e => rfl
  | ok p =>
    simp only
    cases p.unmarshalBinary b <;> rfl

/-- Without the gate nothing is returned. -/
theorem unmarshal_nogate (b : Bytes) (h : 12 ≤ b.length) (hg : ¬ GateOK b) :
    ∃ e, unmarshal b = .ok (none, some e) := by
  by_cases hm : arrAt b 0 8 = artNet
  · by_cases hv : opOf b ≠ OpCode.opPollReply ∧ seenVersion b < 14
    · exact ⟨_, unmarshal_version b h hm hv⟩
    · exfalso
      apply hg
      refine ⟨hm, fun ho => ?_⟩
      exact UInt8.not_lt.mp (fun hlt => hv ⟨ho, hlt⟩)
  · exact ⟨_, unmarshal_magic b h hm⟩

end Verif
