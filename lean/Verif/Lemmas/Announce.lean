import Verif.Lemmas.Config
import Verif.Spec.Wire
import Verif.Spec.Text
/-
The first error of validate, and the text fields of an announcement.
-/
namespace Verif.Artnet
open Spec Packet Code

theorem validateFrom_first (c : NodeConfig) (n i : Nat) (hn : n = 4 - i) {e : ConfigErr} (h : c.validateFrom i = .ok (some e)) :
    ∃ k p q, i ≤ k ∧ k < 4 ∧ e = .typeMismatch (PortType.type p.type) (k + 1) (PortType.type q.type) ∧
      c.inputPorts[k]? = some p ∧ c.outputPorts[k]? = some q ∧ PortType.type p.type ≠ PortType.type q.type ∧
      ∀ j p q, i ≤ j → j < k → c.inputPorts[j]? = some p → c.outputPorts[j]? = some q →
        PortType.type p.type = PortType.type q.type := by
  induction n generalizing i with
  | zero =>
    unfold NodeConfig.validateFrom at h
    rw [if_neg (by omega)] at h
    cases h
  | succ n ih =>
    unfold NodeConfig.validateFrom at h
    rw [if_pos (by omega)] at h
    by_cases hlen : c.inputPorts.length ≤ i ∨ c.outputPorts.length ≤ i
    · rw [if_pos hlen] at h
      obtain ⟨k, p, q, h1, h2, h3, h4, h5, h6, h7⟩ := ih (i + 1) (by omega) h
      refine ⟨k, p, q, by omega, h2, h3, h4, h5, h6, fun j a b hj hk ha hb => ?_⟩
      by_cases e : j = i
      · subst e
        have := (List.getElem?_eq_some_iff.mp ha).1
        have := (List.getElem?_eq_some_iff.mp hb).1
        omega
      · exact h7 j a b (by omega) hk ha hb
    · rw [if_neg hlen] at h
      rw [not_or] at hlen
      have hx : c.inputPorts[i]? = some (c.inputPorts[i]'(by omega)) := List.getElem?_eq_getElem _
      have hy : c.outputPorts[i]? = some (c.outputPorts[i]'(by omega)) := List.getElem?_eq_getElem _
      simp only [idxL_eq hx, idxL_eq hy, bind, Except.bind] at h
      by_cases hm : PortType.type (c.inputPorts[i]'(by omega)).type ≠
          PortType.type (c.outputPorts[i]'(by omega)).type
      · rw [if_pos hm] at h
        refine ⟨i, _, _, Nat.le_refl _, by omega, ?_, hx, hy, hm, fun j _ _ h1 h2 => by omega⟩
        injection h with h
        injection h with h
        exact h.symm
      · rw [if_neg hm] at h
        obtain ⟨k, p, q, h1, h2, h3, h4, h5, h6, h7⟩ := ih (i + 1) (by omega) h
        refine ⟨k, p, q, by omega, h2, h3, h4, h5, h6, fun j a b hj hk ha hb => ?_⟩
        by_cases e : j = i
        · subst e
          rw [hx] at ha; rw [hy] at hb
          injection ha with ha; injection hb with hb
          subst ha; subst hb
          exact Decidable.not_not.mp hm
        · exact h7 j a b (by omega) hk ha hb

theorem fields (p : ArtPollReply) : field (pollReplyImage p) 26 18 = p.shortName.val ∧
    field (pollReplyImage p) 44 64 = p.longName.val ∧ field (pollReplyImage p) 108 64 = p.nodeReport.val := by
  have key : ∀ (l m b : Bytes) (a n : Nat), l.length = a → m.length = n → (∃ r, b = l ++ (m ++ r)) → field b a n = m := by
    rintro l m b a n hl hm ⟨r, rfl⟩
    subst hl; subst hm
    rw [field, List.drop_left, List.take_left]
  have h1 := p.ipAddress.len
  have h2 := p.estaManufacturer.len
  have h3 := p.shortName.len
  have h4 := p.longName.len
  have h5 := p.nodeReport.len
  unfold pollReplyImage
  refine ⟨?_, ?_, ?_⟩
  · refine key (magic ++ [0x00, 0x21] ++ p.ipAddress.val ++ le16 p.port ++ be16 p.versionInfo ++
      [p.netSwitch, p.subSwitch] ++ be16 p.oem ++ [p.ubeaVersion, p.status1] ++ p.estaManufacturer.val) _ _ 26 18 ?_ h3 ?_
    · simp only [List.length_append, h1, h2]; rfl
    · simp only [List.append_assoc]; exact ⟨_, rfl⟩
  · refine key (magic ++ [0x00, 0x21] ++ p.ipAddress.val ++ le16 p.port ++ be16 p.versionInfo ++
      [p.netSwitch, p.subSwitch] ++ be16 p.oem ++ [p.ubeaVersion, p.status1] ++ p.estaManufacturer.val ++
      p.shortName.val) _ _ 44 64 ?_ h4 ?_
    · simp only [List.length_append, h1, h2, h3]; rfl
    · simp only [List.append_assoc]; exact ⟨_, rfl⟩
  · refine key (magic ++ [0x00, 0x21] ++ p.ipAddress.val ++ le16 p.port ++ be16 p.versionInfo ++
      [p.netSwitch, p.subSwitch] ++ be16 p.oem ++ [p.ubeaVersion, p.status1] ++ p.estaManufacturer.val ++
      p.shortName.val ++ p.longName.val) _ _ 108 64 ?_ h5 ?_
    · simp only [List.length_append, h1, h2, h3, h4]; rfl
    · simp only [List.append_assoc]; exact ⟨_, rfl⟩

/-- What is in a text field of `n` bytes. -/
theorem copyFrom_take (n : Nat) (s : Bytes) : ((Arr.zero n).copyFrom s).val = s.take n ++ List.replicate (n - s.length) 0 := by
  by_cases h : s.length ≤ n
  · rw [copyFrom_zero s h, List.take_of_length_le h]
  · simp only [Arr.copyFrom, copyInto, Arr.zero, List.length_replicate, List.drop_replicate]

theorem ended_iff (n : Nat) (s : Bytes) : 0 ∈ s.take n ++ List.replicate (n - s.length) 0 ↔ s.length < n ∨ 0 ∈ s.take n := by
  rw [List.mem_append, List.mem_replicate]
  constructor
  · rintro (h | h)
    · exact .inr h
    · exact .inl (by omega)
  · rintro (h | h)
    · exact .inr ⟨by omega, rfl⟩
    · exact .inl h

end Verif.Artnet
