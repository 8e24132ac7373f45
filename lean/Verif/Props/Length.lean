import Verif.Spec.Length
import Verif.Props.Outcome
/-
The field Length of the packets with a variable number of data bytes: C131.
-/
namespace Verif.Props
open Spec Packet Code

/-! ### C131 -/

/-- C131 as stated: a datagram of a packet type with a variable number of data bytes is accepted exactly if its Length is
between 1 and 512 and that many data bytes follow. -/
def C131_statement : Prop := ∀ e ∈ variableSized, ∀ b : Bytes, HeaderOK b → opOf b = e.1 → ForAll b →
  ((∃ p, unmarshal b = .ok (some p, none)) ↔
    1 ≤ (be16At b e.2).toNat ∧ (be16At b e.2).toNat ≤ 512 ∧ e.2 + 2 + (be16At b e.2).toNat ≤ b.length)

/-- C131 as far as it holds: Length is not looked at. A datagram is accepted exactly if all 512 data bytes follow; Length,
whatever it says, and the 512 bytes are handed over. -/
theorem C131_partial (e : UInt16 × Nat) (he : e ∈ variableSized) (b : Bytes) (hh : HeaderOK b) (ho : opOf b = e.1)
    (hf : ForAll b) :
    ((∃ p, unmarshal b = .ok (some p, none)) ↔ e.2 + 514 ≤ b.length) ∧
    ∀ p, unmarshal b = .ok (some p, none) → lengthAndData p = some (be16At b e.2, arrAt b (e.2 + 2) 512) := by
  simp only [variableSized, List.mem_cons, List.not_mem_nil, or_false] at he
  refine ⟨⟨fun ⟨p, hp⟩ => ?_, fun hl => ?_⟩, fun p hp => ?_⟩
  · have ha := accepts_of_unmarshal b p hp
    rcases he with rfl | rfl | rfl <;> cases ha <;> simp_all
  · rcases he with rfl | rfl | rfl
    · exact ⟨_, unmarshal_of_accepts _ _ (.diagData b hh ho hl)⟩
    · exact ⟨_, unmarshal_of_accepts _ _ (.command b hh ho hl (hf ho))⟩
    · exact ⟨_, unmarshal_of_accepts _ _ (.nzs b hh ho hl)⟩
  · have ha := accepts_of_unmarshal b p hp
    rcases he with rfl | rfl | rfl <;> cases ha <;> first | rfl | simp_all

/-- What other implementations send with fewer than 512 data bytes is refused, though it says so correctly. -/
theorem C131_short (e : UInt16 × Nat) (he : e ∈ variableSized) (b : Bytes) (hh : HeaderOK b) (ho : opOf b = e.1)
    (hf : ForAll b) (hb : b.length = e.2 + 2 + (be16At b e.2).toNat) (hn : (be16At b e.2).toNat < 512) :
    ∀ p, unmarshal b ≠ .ok (some p, none) := fun p hp => by
  have := (C131_partial e he b hh ho hf).1.mp ⟨p, hp⟩
  omega

/-- An ArtNzs with one channel. -/
def nzs1 : Bytes := magic ++ [0x00, 0x51, 0, 14, 1, 0x17, 1, 0, 0, 1, 0xff]

theorem C131_false : ¬ C131_statement := by
  intro h
  have h1 := (h (0x5100, 16) (by decide) nzs1 (by decide) (by decide) (by decide)).mpr (by decide)
  obtain ⟨p, hp⟩ := h1
  exact C131_short (0x5100, 16) (by decide) nzs1 (by decide) (by decide) (by decide) (by decide) (by decide) p hp

/-- An ArtNzs that says to carry 65535 channels. -/
def nzsFull : Bytes := nzs1.set 16 0xff |>.set 17 0xff |>.append (zeros 511)

/-- Length may be larger than the data: a call-back that takes Data[:Length] panics. -/
theorem C131_unchecked : ∃ p, unmarshal nzsFull = .ok (some p, none) ∧
    (lengthAndData p).map (·.1) = some 0xffff := by
  obtain ⟨p, hp⟩ := (C131_partial (0x5100, 16) (by decide) nzsFull (by decide +kernel) (by decide +kernel)
    (by decide +kernel)).1.mpr (by decide +kernel)
  refine ⟨p, hp, ?_⟩
  rw [(C131_partial (0x5100, 16) (by decide) nzsFull (by decide +kernel) (by decide +kernel)
    (by decide +kernel)).2 p hp]
  decide +kernel

example : HeaderOK nzs1 ∧ opOf nzs1 = 0x5100 ∧ ForAll nzs1 ∧ nzs1.length = 16 + 2 + (be16At nzs1 16).toNat := by decide

end Verif.Props
