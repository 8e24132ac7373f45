import Verif.Spec.Registers
/-
What the String methods of the registers print, from the documented bits.
-/
namespace Verif.Spec
open Code

/-- Text, each piece followed by a word that depends on one bit. -/
def lineOf (yes no : String) (s : UInt8) : List (String × Nat) → String
  | [] => ""
  | (t, k) :: l => t ++ ((if bitOf s k then yes else no) ++ lineOf yes no s l)

/-- A register that is a set of flags: the words for one and zero, the text before each flag and its bit, and the
String method. -/
structure Printed where
  yes : String
  no : String
  parts : List (String × Nat)
  print : UInt8 → String

/-- The registers that are sets of flags. -/
def printed : List Printed := [
  ⟨"yes", "no", [("TalkToMe: ReplyOnChange: ", 1), (", Diagnostics: ", 2), (" (as unicast: ", 3), ("), VLC: ", 4)],
    TalkToMe.str⟩,
  ⟨"yes", "no", [("Status2: Browser: ", 0), (", DHCP: ", 1), (", DHCPCapable: ", 2), (", Port 15bit: ", 3),
    (", CanSwitch: ", 4), (", Squawking: ", 5)], Status2.str⟩,
  ⟨"yes", "no", [("GoodInput: ReceiveErrors: ", 2), (", Disabled: ", 3), (", DMX512Text: ", 4), (", DMX512SIP: ", 5),
    (", DMX512Test: ", 6), (", DataReceived: ", 7)], GoodInput.str⟩,
  ⟨"yes", "no", [("GoodOutput: OutputACN: ", 0), (", LTPMergeMode: ", 1), (", OutputShort: ", 2), (", Merging: ", 3),
    (", DMX512Text: ", 4), (", DMX512SIP: ", 5), (", DMX512Test: ", 6), (", DataSending: ", 7)], GoodOutput.str⟩,
  ⟨"on", "off", [("SwMacro: Macro1: ", 0), (", Macro2: ", 1), (", Macro3: ", 2), (", Macro4: ", 3), (", Macro5: ", 4),
    (", Macro6: ", 5), (", Macro7: ", 6), (", Macro8: ", 7)], SwMacro.str⟩,
  ⟨"on", "off", [("SwRemote: Remote1: ", 0), (", Remote2: ", 1), (", Remote3: ", 2), (", Remote4: ", 3), (", Remote5: ", 4),
    (", Remote6: ", 5), (", Remote7: ", 6), (", Remote8: ", 7)], SwRemote.str⟩]

/-- The name of the protocol in the low five bits of a port type. -/
def protocolOf (s : UInt8) : String := ((protocols.find? fun e => e.2.toNat == s.toNat % 32).map Prod.fst).getD "unknown"

/-- The port-address programming authority, bits 5-4 of Status1. -/
def authorityOf (s : UInt8) : String := ["unknown", "front", "net", "unused"].getD (s.toNat / 16 % 4) ""

/-- The indicator state, bits 7-6 of Status1. -/
def indicatorOf (s : UInt8) : String := ["unknown", "locate", "mute", "normal"].getD (s.toNat / 64) ""

end Verif.Spec
