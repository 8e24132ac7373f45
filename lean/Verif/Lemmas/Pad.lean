import Verif.Lemmas.Congr
/-
Helper lemmas: Unmarshal under changes of padding and under appended bytes.
-/
namespace Verif
open Spec Packet Code

theorem byteAt_ext {b b' : Bytes} (hl : b.length = b'.length)
    (h : ∀ i, byteAt b i = byteAt b' i) : b = b' := by
  apply List.ext_getElem hl
  intro i h1 h2
  have := h i
  simpa [byteAt, h1, h2] using this

theorem pad_ge (op : UInt16) : ∀ i, i < 12 → i ∉ padFor op := by
  intro i hi hm
  simp only [padFor] at hm
  repeat' split at hm
  all_goals simp only [List.mem_cons, List.not_mem_nil, or_false] at hm
  all_goals omega

theorem seenVersion_congr {b b' : Bytes} (h : ∀ i, i < 12 → byteAt b i = byteAt b' i) :
    seenVersion b = seenVersion b' := by
  simp only [seenVersion, h 11 (by omega), be16At_congr (h 8 (by omega)) (h 9 (by omega))]

theorem gate_congr {b b' : Bytes} (h : ∀ i, i < 12 → byteAt b i = byteAt b' i) :
    GateOK b ↔ GateOK b' := by
  have h1 : arrAt b 0 8 = arrAt b' 0 8 := arrAt_congr fun j hj => h _ (by omega)
  simp only [GateOK, h1, opOf_congr h, seenVersion_congr h]

/-- Padding bytes never influence the result of Unmarshal. -/
theorem unmarshal_pad (b b' : Bytes) (hl : b.length = b'.length)
    (h : ∀ i, i ∉ padFor (opOf b) → byteAt b i = byteAt b' i) : unmarshal b = unmarshal b' := by
  by_cases hs : b.length < 12
  · rw [unmarshal_short b hs, unmarshal_short b' (by omega)]
  have h12 : 12 ≤ b.length := by omega
  have h12' : 12 ≤ b'.length := by omega
  have hh : ∀ i, i < 12 → byteAt b i = byteAt b' i := fun i hi => h i (pad_ge _ i hi)
  have hop := opOf_congr hh
  by_cases hg : GateOK b
  · have hg' := (gate_congr hh).mp hg
    rcases dispatch_ok_cases (opOf b) with ⟨e, he⟩ | ho
    · rw [unmarshal_undispatched b h12 hg e he, unmarshal_undispatched b' h12' hg' e (hop ▸ he)]
    · have same (hp : padFor (opOf b) = []) : unmarshal b = unmarshal b' := by
        rw [byteAt_ext hl fun i => h i (by rw [hp]; simp)]
      rcases ho with ho | ho | ho | ho | ho | ho | ho | ho | ho | ho | ho | ho
      · exact same (by rw [ho]; decide)
      · rw [ho] at h
        have ho' : opOf b' = OpCode.opPollReply := hop ▸ ho
        have h14 := h 14 (by decide)
        have h15 := h 15 (by decide)
        rw [unmarshal_pollReply b h12 hg ho, unmarshal_pollReply b' h12' hg' ho', hl,
          le16At_congr h14 h15, be16At_congr h14 h15, h 200 (by decide),
          pollReplyOf_congr (be16At b' 14) fun i _ hi => h i hi,
          pollReplyOf_congr 6454 fun i _ hi => h i hi]
      · rw [ho] at h
        have ho' : opOf b' = OpCode.opDiagData := hop ▸ ho
        rw [unmarshal_diagData b h12 hg ho, unmarshal_diagData b' h12' hg' ho', hl,
          diagDataOf_congr fun i _ hi => h i hi]
      · exact same (by rw [ho]; decide)
      · exact same (by rw [ho]; decide)
      · exact same (by rw [ho]; decide)
      · rw [ho] at h
        have ho' : opOf b' = OpCode.opSync := hop ▸ ho
        rw [unmarshal_sync b h12 hg ho, unmarshal_sync b' h12' hg' ho', hl,
          syncOf_congr fun i _ hi => h i hi]
      · exact same (by rw [ho]; decide)
      · rw [ho] at h
        have ho' : opOf b' = OpCode.opTimeCode := hop ▸ ho
        rw [unmarshal_timeCode b h12 hg ho, unmarshal_timeCode b' h12' hg' ho', hl,
          timeCodeOf_congr fun i _ hi => h i hi]
      · rw [ho] at h
        have ho' : opOf b' = OpCode.opTrigger := hop ▸ ho
        rw [unmarshal_trigger b h12 hg ho, unmarshal_trigger b' h12' hg' ho', hl,
          triggerOf_congr fun i _ hi => h i hi]
      · rw [ho] at h
        have ho' : opOf b' = OpCode.opIPProg := hop ▸ ho
        rw [unmarshal_ipProg b h12 hg ho, unmarshal_ipProg b' h12' hg' ho', hl,
          ipProgOf_congr fun i _ hi => h i hi]
      · rw [ho] at h
        have ho' : opOf b' = OpCode.opIPProgReply := hop ▸ ho
        rw [unmarshal_ipProgReply b h12 hg ho, unmarshal_ipProgReply b' h12' hg' ho', hl,
          ipProgReplyOf_congr fun i _ hi => h i hi]
  · have hg' : ¬ GateOK b' := fun hc => hg ((gate_congr hh).mpr hc)
    have h1 : arrAt b 0 8 = arrAt b' 0 8 := arrAt_congr fun j hj => hh _ (by omega)
    by_cases hm : arrAt b 0 8 = artNet
    · have hv : opOf b ≠ OpCode.opPollReply ∧ seenVersion b < 14 := by
        by_cases hv : opOf b ≠ OpCode.opPollReply ∧ seenVersion b < 14
        · exact hv
        · exact absurd ⟨hm, fun ho => UInt8.not_lt.mp fun hlt => hv ⟨ho, hlt⟩⟩ hg
      rw [unmarshal_version b h12 hm hv, unmarshal_version b' h12' (h1 ▸ hm)
        (by rw [← hop, ← seenVersion_congr hh]; exact hv), seenVersion_congr hh]
    · rw [unmarshal_magic b h12 hm, unmarshal_magic b' h12' (h1 ▸ hm)]

theorem byteAt_app (b t : Bytes) (n : Nat) (h : n ≤ b.length) :
    ∀ i, i < n → byteAt b i = byteAt (b ++ t) i :=
  fun i hi => (byteAt_append_left b t i (by omega)).symm

theorem headerOK_append {b : Bytes} (t : Bytes) (h : HeaderOK b) : HeaderOK (b ++ t) := by
  obtain ⟨h1, h2, h3⟩ := h
  refine ⟨by simp; omega, ?_, ?_⟩
  · rw [List.take_append_of_le_length (by omega)]; exact h2
  · rw [← opOf_congr (byteAt_app b t 12 h1), ← byteAt_app b t 12 h1 11 (by omega)]; exact h3

/-- Appended bytes never influence an accepted datagram. -/
theorem accepts_append {b : Bytes} {p : AnyPacket} (t : Bytes) (h : Accepts b p) :
    Accepts (b ++ t) p := by
  have hla : b.length ≤ (b ++ t).length := by simp
  cases h with
  | poll hh ho hl =>
    rw [pollOf_congr fun i hi _ => byteAt_app b t 14 hl i hi]
    refine .poll _ (headerOK_append t hh) ?_ (by omega)
    rw [← opOf_congr (byteAt_app b t 12 hh.1)]; exact ho
  | pollReply hh ho hl hp hs =>
    have e := byteAt_app b t 239 hl
    rw [pollReplyOf_congr 6454 fun i hi _ => e i hi]
    rw [e 14 (by omega), e 15 (by omega)] at hp
    rw [e 200 (by omega)] at hs
    refine .pollReply _ (headerOK_append t hh) ?_ (by omega) hp hs
    rw [← opOf_congr (byteAt_app b t 12 hh.1)]; exact ho
  | diagData hh ho hl =>
    rw [diagDataOf_congr fun i hi _ => byteAt_app b t 530 hl i hi]
    refine .diagData _ (headerOK_append t hh) ?_ (by omega)
    rw [← opOf_congr (byteAt_app b t 12 hh.1)]; exact ho
  | command hh ho hl he =>
    have e := byteAt_app b t 528 hl
    rw [commandOf_congr fun i hi _ => e i hi]
    rw [e 12 (by omega), e 13 (by omega)] at he
    refine .command _ (headerOK_append t hh) ?_ (by omega) he
    rw [← opOf_congr (byteAt_app b t 12 hh.1)]; exact ho
  | dmx hh ho h1 h2 h3 h4 =>
    have e := byteAt_app b t (18 + (be16At b 16).toNat) h1
    have w : be16At b 16 = be16At (b ++ t) 16 := be16At_congr (e 16 (by omega)) (e 17 (by omega))
    rw [dmxOf_congr (fun i hi => e i (by omega)) (fun i hi => e _ (by omega))]
    rw [w] at h1 h2 h3 h4
    refine .dmx _ (headerOK_append t hh) ?_ (by omega) h2 h3 h4
    rw [← opOf_congr (byteAt_app b t 12 hh.1)]; exact ho
  | nzs hh ho hl =>
    rw [nzsOf_congr fun i hi _ => byteAt_app b t 530 hl i hi]
    refine .nzs _ (headerOK_append t hh) ?_ (by omega)
    rw [← opOf_congr (byteAt_app b t 12 hh.1)]; exact ho
  | sync hh ho hl =>
    rw [syncOf_congr fun i hi _ => byteAt_app b t 14 hl i hi]
    refine .sync _ (headerOK_append t hh) ?_ (by omega)
    rw [← opOf_congr (byteAt_app b t 12 hh.1)]; exact ho
  | address hh ho hl =>
    rw [addressOf_congr fun i hi _ => byteAt_app b t 107 hl i hi]
    refine .address _ (headerOK_append t hh) ?_ (by omega)
    rw [← opOf_congr (byteAt_app b t 12 hh.1)]; exact ho
  | timeCode hh ho hl =>
    rw [timeCodeOf_congr fun i hi _ => byteAt_app b t 19 hl i hi]
    refine .timeCode _ (headerOK_append t hh) ?_ (by omega)
    rw [← opOf_congr (byteAt_app b t 12 hh.1)]; exact ho
  | trigger hh ho hl =>
    rw [triggerOf_congr fun i hi _ => byteAt_app b t 530 hl i hi]
    refine .trigger _ (headerOK_append t hh) ?_ (by omega)
    rw [← opOf_congr (byteAt_app b t 12 hh.1)]; exact ho
  | ipProg hh ho hl =>
    rw [ipProgOf_congr fun i hi _ => byteAt_app b t 34 hl i hi]
    refine .ipProg _ (headerOK_append t hh) ?_ (by omega)
    rw [← opOf_congr (byteAt_app b t 12 hh.1)]; exact ho
  | ipProgReply hh ho hl =>
    rw [ipProgReplyOf_congr fun i hi _ => byteAt_app b t 34 hl i hi]
    refine .ipProgReply _ (headerOK_append t hh) ?_ (by omega)
    rw [← opOf_congr (byteAt_app b t 12 hh.1)]; exact ho

end Verif
