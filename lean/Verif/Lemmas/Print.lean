import Verif.Lemmas.Names
import Verif.Spec.Print
/-
The getters of the registers and the bits they read; lines made of flags.
-/
namespace Verif.Code
open Spec

theorem TalkToMe.bits (s : UInt8) : TalkToMe.replyOnChange s = bitOf s 1 ∧
    TalkToMe.diagnostics s = bitOf s 2 ∧
    TalkToMe.diagUnicast s = bitOf s 3 ∧
    TalkToMe.vlc s = bitOf s 4 :=
  forall_u8 (P := fun s => TalkToMe.replyOnChange s = bitOf s 1 ∧
    TalkToMe.diagnostics s = bitOf s 2 ∧
    TalkToMe.diagUnicast s = bitOf s 3 ∧
    TalkToMe.vlc s = bitOf s 4) (by decide +kernel) s

theorem Status2.bits (s : UInt8) : Status2.browser s = bitOf s 0 ∧
    Status2.dhcp s = bitOf s 1 ∧
    Status2.dHCPCapable s = bitOf s 2 ∧
    Status2.port15 s = bitOf s 3 ∧
    Status2.switch s = bitOf s 4 ∧
    Status2.squawk s = bitOf s 5 :=
  forall_u8 (P := fun s => Status2.browser s = bitOf s 0 ∧
    Status2.dhcp s = bitOf s 1 ∧
    Status2.dHCPCapable s = bitOf s 2 ∧
    Status2.port15 s = bitOf s 3 ∧
    Status2.switch s = bitOf s 4 ∧
    Status2.squawk s = bitOf s 5) (by decide +kernel) s

theorem GoodInput.bits (s : UInt8) : GoodInput.receive s = bitOf s 2 ∧
    GoodInput.disabled s = bitOf s 3 ∧
    GoodInput.text s = bitOf s 4 ∧
    GoodInput.sip s = bitOf s 5 ∧
    GoodInput.test s = bitOf s 6 ∧
    GoodInput.data s = bitOf s 7 :=
  forall_u8 (P := fun s => GoodInput.receive s = bitOf s 2 ∧
    GoodInput.disabled s = bitOf s 3 ∧
    GoodInput.text s = bitOf s 4 ∧
    GoodInput.sip s = bitOf s 5 ∧
    GoodInput.test s = bitOf s 6 ∧
    GoodInput.data s = bitOf s 7) (by decide +kernel) s

theorem GoodOutput.bits (s : UInt8) : GoodOutput.acn s = bitOf s 0 ∧
    GoodOutput.ltp s = bitOf s 1 ∧
    GoodOutput.output s = bitOf s 2 ∧
    GoodOutput.merging s = bitOf s 3 ∧
    GoodOutput.text s = bitOf s 4 ∧
    GoodOutput.sip s = bitOf s 5 ∧
    GoodOutput.test s = bitOf s 6 ∧
    GoodOutput.data s = bitOf s 7 :=
  forall_u8 (P := fun s => GoodOutput.acn s = bitOf s 0 ∧
    GoodOutput.ltp s = bitOf s 1 ∧
    GoodOutput.output s = bitOf s 2 ∧
    GoodOutput.merging s = bitOf s 3 ∧
    GoodOutput.text s = bitOf s 4 ∧
    GoodOutput.sip s = bitOf s 5 ∧
    GoodOutput.test s = bitOf s 6 ∧
    GoodOutput.data s = bitOf s 7) (by decide +kernel) s

theorem SwMacro.bits (s : UInt8) : SwMacro.macro1 s = bitOf s 0 ∧
    SwMacro.macro2 s = bitOf s 1 ∧
    SwMacro.macro3 s = bitOf s 2 ∧
    SwMacro.macro4 s = bitOf s 3 ∧
    SwMacro.macro5 s = bitOf s 4 ∧
    SwMacro.macro6 s = bitOf s 5 ∧
    SwMacro.macro7 s = bitOf s 6 ∧
    SwMacro.macro8 s = bitOf s 7 :=
  forall_u8 (P := fun s => SwMacro.macro1 s = bitOf s 0 ∧
    SwMacro.macro2 s = bitOf s 1 ∧
    SwMacro.macro3 s = bitOf s 2 ∧
    SwMacro.macro4 s = bitOf s 3 ∧
    SwMacro.macro5 s = bitOf s 4 ∧
    SwMacro.macro6 s = bitOf s 5 ∧
    SwMacro.macro7 s = bitOf s 6 ∧
    SwMacro.macro8 s = bitOf s 7) (by decide +kernel) s

theorem SwRemote.bits (s : UInt8) : SwRemote.remote1 s = bitOf s 0 ∧
    SwRemote.remote2 s = bitOf s 1 ∧
    SwRemote.remote3 s = bitOf s 2 ∧
    SwRemote.remote4 s = bitOf s 3 ∧
    SwRemote.remote5 s = bitOf s 4 ∧
    SwRemote.remote6 s = bitOf s 5 ∧
    SwRemote.remote7 s = bitOf s 6 ∧
    SwRemote.remote8 s = bitOf s 7 :=
  forall_u8 (P := fun s => SwRemote.remote1 s = bitOf s 0 ∧
    SwRemote.remote2 s = bitOf s 1 ∧
    SwRemote.remote3 s = bitOf s 2 ∧
    SwRemote.remote4 s = bitOf s 3 ∧
    SwRemote.remote5 s = bitOf s 4 ∧
    SwRemote.remote6 s = bitOf s 5 ∧
    SwRemote.remote7 s = bitOf s 6 ∧
    SwRemote.remote8 s = bitOf s 7) (by decide +kernel) s

theorem PortType.bits (s : UInt8) : PortType.output s = bitOf s 7 ∧
    PortType.input s = bitOf s 6 :=
  forall_u8 (P := fun s => PortType.output s = bitOf s 7 ∧
    PortType.input s = bitOf s 6) (by decide +kernel) s

theorem Status1.bits (s : UInt8) : Status1.ubea s = bitOf s 0 ∧
    Status1.rdm s = bitOf s 1 ∧
    Status1.bootROM s = bitOf s 2 :=
  forall_u8 (P := fun s => Status1.ubea s = bitOf s 0 ∧
    Status1.rdm s = bitOf s 1 ∧
    Status1.bootROM s = bitOf s 2) (by decide +kernel) s

/-- What follows two words neither of which begins the other. -/
theorem word_cases {y n a b u v : List Char} (h1 : ¬ y <+: n) (h2 : ¬ n <+: y) (ha : a = y ∨ a = n) (hb : b = y ∨ b = n)
    (h : a ++ u = b ++ v) : a = b ∧ u = v := by
  have key : a <+: b ∨ b <+: a :=
    List.prefix_or_prefix_of_prefix (l₃ := b ++ v) (h ▸ List.prefix_append a u) (List.prefix_append b v)
  have hab : a = b := by
    rcases ha with rfl | rfl <;> rcases hb with rfl | rfl
    · rfl
    · exact absurd key (by rintro (k | k) <;> contradiction)
    · exact absurd key (by rintro (k | k) <;> contradiction)
    · rfl
  subst hab
  exact ⟨rfl, List.append_cancel_left h⟩

/-- Lines that are equal come from registers with the same bits. -/
theorem lineOf_inj {yes no : String} (h1 : ¬ yes.toList <+: no.toList) (h2 : ¬ no.toList <+: yes.toList) {s t : UInt8}
    {l : List (String × Nat)} (h : lineOf yes no s l = lineOf yes no t l) : ∀ e ∈ l, bitOf s e.2 = bitOf t e.2 := by
  induction l with
  | nil => exact nofun
  | cons e l ih =>
    obtain ⟨x, k⟩ := e
    have h := congrArg String.toList h
    simp only [lineOf, String.toList_append] at h
    obtain ⟨h3, h4⟩ := word_cases h1 h2 (by split <;> simp) (by split <;> simp) (List.append_cancel_left h)
    intro e he
    rcases List.mem_cons.mp he with rfl | he
    · show bitOf s k = bitOf t k
      cases hs : bitOf s k <;> cases ht : bitOf t k
      · rfl
      · rw [hs, ht] at h3
        exact absurd (List.prefix_refl _) (by simp only [Bool.false_eq_true, if_false, if_true] at h3; rw [h3] at h2; exact h2)
      · rw [hs, ht] at h3
        exact absurd (List.prefix_refl _) (by simp only [Bool.false_eq_true, if_false, if_true] at h3; rw [h3] at h1; exact h1)
      · rfl
    · exact ih (String.toList_inj.mp h4) e he

theorem lineOf_congr {yes no : String} {s t : UInt8} {l : List (String × Nat)} (h : ∀ e ∈ l, bitOf s e.2 = bitOf t e.2) :
    lineOf yes no s l = lineOf yes no t l := by
  induction l with
  | nil => rfl
  | cons e l ih =>
    obtain ⟨x, k⟩ := e
    simp only [lineOf]
    rw [ih fun e he => h e (List.mem_cons_of_mem _ he), show bitOf s k = bitOf t k from h (x, k) (List.mem_cons_self ..)]

end Verif.Code
