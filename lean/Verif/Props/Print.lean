import Verif.Lemmas.Print
/-
What the String methods of the registers print: C122.
-/
namespace Verif.Props
open Spec Code

/-! ### C122 -/

/-- C122 as stated: the String method of a register prints what its documented bits mean. -/
def C122_statement : Prop :=
  (∀ r ∈ printed, ∀ s, r.print s = lineOf r.yes r.no s r.parts) ∧
  (∀ s, PortType.str s = "PortType: Type: " ++ protocolOf s ++ lineOf "yes" "no" s [(", Output: ", 7), (", Input: ", 6)]) ∧
  (∀ s, Status1.str s = lineOf "yes" "no" s [("Status1: UBEA: ", 0), (", RDM: ", 1), (", BootRom: ", 2)] ++
    ", PortAddr: " ++ authorityOf s ++ ", Indicator: " ++ indicatorOf s)

/-- Status1 prints "unknown" for "net". -/
theorem C122_false : ¬ C122_statement := by
  intro h
  have := h.2.2 0x20
  revert this
  decide +kernel

theorem append3 (a b c : String) : a ++ b ++ c = a ++ (b ++ c) := String.append_assoc

/-- C122 as far as it holds: for all registers but Status1, which prints its flags, and of the two fields of two bits
only the lower bit. -/
theorem C122_partial :
    (∀ r ∈ printed, ∀ s, r.print s = lineOf r.yes r.no s r.parts) ∧
    (∀ s, PortType.str s = "PortType: Type: " ++ protocolOf s ++ lineOf "yes" "no" s [(", Output: ", 7), (", Input: ", 6)]) ∧
    (∀ s, Status1.str s = lineOf "yes" "no" s [("Status1: UBEA: ", 0), (", RDM: ", 1), (", BootRom: ", 2)] ++
      ", PortAddr: " ++ (if bitOf s 4 then "front" else "unknown") ++ ", Indicator: " ++
      (if bitOf s 6 then "locate" else "unknown")) := by
  refine ⟨?_, fun s => ?_, fun s => ?_⟩
  · simp only [printed, List.forall_mem_cons]
    refine ⟨fun s => ?_, fun s => ?_, fun s => ?_, fun s => ?_, fun s => ?_, fun s => ?_, nofun⟩
    · obtain ⟨h1, h2, h3, h4⟩ := TalkToMe.bits s
      unfold TalkToMe.str
      rw [h1, h2, h3, h4]
      simp only [lineOf, String.append_empty]
      repeat rw [append3]
    · obtain ⟨h1, h2, h3, h4, h5, h6⟩ := Status2.bits s
      unfold Status2.str
      rw [h1, h2, h3, h4, h5, h6]
      simp only [lineOf, String.append_empty]
      repeat rw [append3]
    · obtain ⟨h1, h2, h3, h4, h5, h6⟩ := GoodInput.bits s
      unfold GoodInput.str
      rw [h1, h2, h3, h4, h5, h6]
      simp only [lineOf, String.append_empty]
      repeat rw [append3]
    · obtain ⟨h1, h2, h3, h4, h5, h6, h7, h8⟩ := GoodOutput.bits s
      unfold GoodOutput.str
      rw [h1, h2, h3, h4, h5, h6, h7, h8]
      simp only [lineOf, String.append_empty]
      repeat rw [append3]
    · obtain ⟨h1, h2, h3, h4, h5, h6, h7, h8⟩ := SwMacro.bits s
      unfold SwMacro.str
      rw [h1, h2, h3, h4, h5, h6, h7, h8]
      simp only [lineOf, String.append_empty]
      repeat rw [append3]
    · obtain ⟨h1, h2, h3, h4, h5, h6, h7, h8⟩ := SwRemote.bits s
      unfold SwRemote.str
      rw [h1, h2, h3, h4, h5, h6, h7, h8]
      simp only [lineOf, String.append_empty]
      repeat rw [append3]
  · obtain ⟨h1, h2⟩ := PortType.bits s
    have ht : PortType.type s = protocolOf s := forall_u8 (P := fun s => PortType.type s = protocolOf s) (by decide +kernel) s
    unfold PortType.str
    rw [h1, h2, ht]
    simp only [lineOf, String.append_empty]
    repeat rw [append3]
  · obtain ⟨h1, h2, h3⟩ := Status1.bits s
    obtain ⟨ha, hi⟩ : Status1.portAddr s = (if bitOf s 4 then "front" else "unknown") ∧
        Status1.indicator s = (if bitOf s 6 then "locate" else "unknown") :=
      forall_u8 (P := fun s => Status1.portAddr s = (if bitOf s 4 then "front" else "unknown") ∧
        Status1.indicator s = (if bitOf s 6 then "locate" else "unknown")) (by decide +kernel) s
    unfold Status1.str
    rw [h1, h2, h3, ha, hi]
    simp only [lineOf, String.append_empty]
    repeat rw [append3]

/-- Two values of a register of flags print alike exactly if they agree in every documented flag. -/
theorem C122_unambiguous (r : Printed) (hr : r ∈ printed) (s t : UInt8) :
    r.print s = r.print t ↔ ∀ e ∈ r.parts, bitOf s e.2 = bitOf t e.2 := by
  rw [C122_partial.1 r hr s, C122_partial.1 r hr t]
  refine ⟨lineOf_inj ?_ ?_, lineOf_congr⟩
  · have : ∀ r ∈ printed, ¬ r.yes.toList <+: r.no.toList := by decide
    exact this r hr
  · have : ∀ r ∈ printed, ¬ r.no.toList <+: r.yes.toList := by decide
    exact this r hr

example : ∃ r ∈ printed, r.print 0x05 = "GoodInput: ReceiveErrors: yes, Disabled: no, DMX512Text: no, DMX512SIP: no, \
    DMX512Test: no, DataReceived: no" ∧ r.print 0x05 = r.print 0x04 := by
  refine ⟨_, List.mem_cons_of_mem _ (List.mem_cons_of_mem _ (List.mem_cons_self ..)), ?_, ?_⟩ <;> decide +kernel

end Verif.Props
