import Verif.Model.Code
/-
Specification tables for the registers: the documented bit of every flag and the declared constants.
-/
namespace Verif.Spec
open Code

/-- A boolean flag of a register: its documented bit, the getter `X()` and the setter `WithX(b)`. -/
structure Flag where
  name : String
  bit : Nat
  get : UInt8 → Bool
  set : UInt8 → Bool → UInt8

/-- Bit `k` of a register. -/
def bitOf (s : UInt8) (k : Nat) : Bool := s.toNat.testBit k

/-- Every flag of every register with the bit that the Art-Net specification assigns to it. -/
def flags : List Flag := [
  ⟨"TalkToMe.ReplyOnChange", 1, TalkToMe.replyOnChange, TalkToMe.withReplyOnChange⟩,
  ⟨"TalkToMe.Diagnostics", 2, TalkToMe.diagnostics, TalkToMe.withDiagnostics⟩,
  ⟨"TalkToMe.DiagUnicast", 3, TalkToMe.diagUnicast, TalkToMe.withDiagUnicast⟩,
  ⟨"TalkToMe.VLC", 4, TalkToMe.vlc, TalkToMe.withVLC⟩,
  ⟨"Status1.UBEA", 0, Status1.ubea, Status1.withUBEA⟩,
  ⟨"Status1.RDM", 1, Status1.rdm, Status1.withRDM⟩,
  ⟨"Status1.BootROM", 2, Status1.bootROM, Status1.withBootROM⟩,
  ⟨"Status2.Browser", 0, Status2.browser, Status2.withBrowser⟩,
  ⟨"Status2.DHCP", 1, Status2.dhcp, Status2.withDHCP⟩,
  ⟨"Status2.DHCPCapable", 2, Status2.dHCPCapable, Status2.withDHCPCapable⟩,
  ⟨"Status2.Port15", 3, Status2.port15, Status2.withPort15⟩,
  ⟨"Status2.Switch", 4, Status2.switch, Status2.withSwitch⟩,
  ⟨"Status2.Squawk", 5, Status2.squawk, Status2.withSquawk⟩,
  ⟨"PortType.Input", 6, PortType.input, PortType.withInput⟩,
  ⟨"PortType.Output", 7, PortType.output, PortType.withOutput⟩,
  ⟨"GoodInput.Receive", 2, GoodInput.receive, GoodInput.withReceive⟩,
  ⟨"GoodInput.Disabled", 3, GoodInput.disabled, GoodInput.withDisabled⟩,
  ⟨"GoodInput.Text", 4, GoodInput.text, GoodInput.withText⟩,
  ⟨"GoodInput.SIP", 5, GoodInput.sip, GoodInput.withSIP⟩,
  ⟨"GoodInput.Test", 6, GoodInput.test, GoodInput.withTest⟩,
  ⟨"GoodInput.Data", 7, GoodInput.data, GoodInput.withData⟩,
  ⟨"GoodOutput.ACN", 0, GoodOutput.acn, GoodOutput.withACN⟩,
  ⟨"GoodOutput.LTP", 1, GoodOutput.ltp, GoodOutput.withLTP⟩,
  ⟨"GoodOutput.Output", 2, GoodOutput.output, GoodOutput.withOutput⟩,
  ⟨"GoodOutput.Merging", 3, GoodOutput.merging, GoodOutput.withMerging⟩,
  ⟨"GoodOutput.Text", 4, GoodOutput.text, GoodOutput.withText⟩,
  ⟨"GoodOutput.SIP", 5, GoodOutput.sip, GoodOutput.withSIP⟩,
  ⟨"GoodOutput.Test", 6, GoodOutput.test, GoodOutput.withTest⟩,
  ⟨"GoodOutput.Data", 7, GoodOutput.data, GoodOutput.withData⟩,
  ⟨"SwMacro.Macro1", 0, SwMacro.macro1, SwMacro.withMacro1⟩,
  ⟨"SwMacro.Macro2", 1, SwMacro.macro2, SwMacro.withMacro2⟩,
  ⟨"SwMacro.Macro3", 2, SwMacro.macro3, SwMacro.withMacro3⟩,
  ⟨"SwMacro.Macro4", 3, SwMacro.macro4, SwMacro.withMacro4⟩,
  ⟨"SwMacro.Macro5", 4, SwMacro.macro5, SwMacro.withMacro5⟩,
  ⟨"SwMacro.Macro6", 5, SwMacro.macro6, SwMacro.withMacro6⟩,
  ⟨"SwMacro.Macro7", 6, SwMacro.macro7, SwMacro.withMacro7⟩,
  ⟨"SwMacro.Macro8", 7, SwMacro.macro8, SwMacro.withMacro8⟩,
  ⟨"SwRemote.Remote1", 0, SwRemote.remote1, SwRemote.withRemote1⟩,
  ⟨"SwRemote.Remote2", 1, SwRemote.remote2, SwRemote.withRemote2⟩,
  ⟨"SwRemote.Remote3", 2, SwRemote.remote3, SwRemote.withRemote3⟩,
  ⟨"SwRemote.Remote4", 3, SwRemote.remote4, SwRemote.withRemote4⟩,
  ⟨"SwRemote.Remote5", 4, SwRemote.remote5, SwRemote.withRemote5⟩,
  ⟨"SwRemote.Remote6", 5, SwRemote.remote6, SwRemote.withRemote6⟩,
  ⟨"SwRemote.Remote7", 6, SwRemote.remote7, SwRemote.withRemote7⟩,
  ⟨"SwRemote.Remote8", 7, SwRemote.remote8, SwRemote.withRemote8⟩]

/-- The declared operation codes (OpDMX is a synonym of OpOutput). -/
def opNames : List (UInt16 × String) := [
  (0x2000, "OpPoll"), (0x2100, "OpPollReply"), (0x2300, "OpDiagData"),
  (0x2400, "OpCommand"), (0x5000, "OpOutput"), (0x5100, "OpNzs"),
  (0x5200, "OpSync"), (0x6000, "OpAddress"), (0x7000, "OpInput"),
  (0x8000, "OpTodRequest"), (0x8100, "OpTodData"), (0x8200, "OpTodControl"),
  (0x8300, "OpRdm"), (0x8400, "OpRdmSub"), (0x9000, "OpMedia"),
  (0x9100, "OpMediaPatch"), (0x9200, "OpMediaControl"), (0x9300, "OpMediaContrlReply"),
  (0x9700, "OpTimeCode"), (0x9800, "OpTimeSync"), (0x9900, "OpTrigger"),
  (0x9a00, "OpDirectory"), (0x9b00, "OpDirectoryReply"), (0xa010, "OpVideoSetup"),
  (0xa020, "OpVideoPalette"), (0xa040, "OpVideoData"), (0xf000, "OpMacMaster"),
  (0xf100, "OpMacSlave"), (0xf200, "OpFirmwareMaster"), (0xf300, "OpFirmwareReply"),
  (0xf400, "OpFileTnMaster"), (0xf500, "OpFileFnMaster"), (0xf600, "OpFileFnReply"),
  (0xf800, "OpIPProg"), (0xf900, "OpIPProgReply")]

/-- The declared style codes and the name each is printed with. -/
def styleNames : List (UInt8 × String) := [
  (0x0, "Node"), (0x1, "Controller"), (0x2, "Media"),
  (0x3, "Route"), (0x4, "Backup"), (0x5, "Config"),
  (0x6, "Visual")]

/-- The declared node report codes. -/
def reportNames : List (UInt8 × String) := [
  (0x0, "RcDebug"), (0x1, "RcPowerOk"), (0x2, "RcPowerFail"),
  (0x3, "RcSocketWr1"), (0x4, "RcParseFail"), (0x5, "RcUDPFail"),
  (0x6, "RcShNameOk"), (0x7, "RcLoNameOk"), (0x8, "RcDmxError"),
  (0x9, "RcDmxUDPFull"), (0xa, "RcDmxRxFull"), (0xb, "RcSwitchErr"),
  (0xc, "RcConfigErr"), (0xd, "RcDmxShort"), (0xe, "RcFirmwareFail"),
  (0xf, "RcUserFail"), (0x10, "RcFactoryRes")]

/-- The declared priority codes. -/
def priorityNames : List (UInt8 × String) := [
  (0x0, "DpAll"), (0x10, "DpLow"), (0x40, "DpMed"),
  (0x80, "DpHigh"), (0xe0, "DpCritical"), (0xf0, "DpVolatile")]

/-- The documented port protocols and their codes. -/
def protocols : List (String × UInt8) := [("DMX512", 0), ("MIDI", 1), ("Avab", 2),
  ("Colortran CMX", 3), ("ADB 62.5", 4), ("Art-Net", 5)]

end Verif.Spec
