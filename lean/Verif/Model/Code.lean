import Verif.Go.Basic
/-
Model of package `packet/code` (registers, operation codes, style codes and their `String` methods)
and of package `version`.  Every register type has underlying type uint8 and is modelled by `UInt8`.
-/
namespace Verif
namespace Code

/-- `s[lo:hi]` on an ASCII string: panics unless `lo ≤ hi ≤ len(s)`. -/
def strSlice (s : String) (lo hi : Nat) : Go String :=
  if lo ≤ hi ∧ hi ≤ s.toList.length then .ok (String.ofList ((s.toList.take hi).drop lo))
  else .error .indexOutOfRange

/-! ### packet/code/talktome.go -/

/-- packet/code/talktome.go:5 (`type TalkToMe uint8`) -/
abbrev TalkToMe := UInt8

namespace TalkToMe

/-- packet/code/talktome.go:9-14 -/
def withReplyOnChange (s : TalkToMe) (enable : Bool) : TalkToMe :=
  if enable then s ||| ((1 : UInt8) <<< 1) else s ||| ((0 : UInt8) <<< 1)

/-- packet/code/talktome.go:17-19 -/
def replyOnChange (s : TalkToMe) : Bool :=
  (s &&& ((1 : UInt8) <<< 1)) > 0

/-- packet/code/talktome.go:22-27 -/
def withDiagnostics (s : TalkToMe) (enable : Bool) : TalkToMe :=
  if enable then s ||| ((1 : UInt8) <<< 2) else s ||| ((0 : UInt8) <<< 2)

/-- packet/code/talktome.go:30-32 -/
def diagnostics (s : TalkToMe) : Bool :=
  (s &&& ((1 : UInt8) <<< 2)) > 0

/-- packet/code/talktome.go:35-40 -/
def withDiagUnicast (s : TalkToMe) (enable : Bool) : TalkToMe :=
  if enable then s ||| ((1 : UInt8) <<< 3) else s ||| ((0 : UInt8) <<< 3)

/-- packet/code/talktome.go:43-45 -/
def diagUnicast (s : TalkToMe) : Bool :=
  (s &&& ((1 : UInt8) <<< 3)) > 0

/-- packet/code/talktome.go:48-53 -/
def withVLC (s : TalkToMe) (enable : Bool) : TalkToMe :=
  if enable then s ||| ((1 : UInt8) <<< 4) else s ||| ((0 : UInt8) <<< 4)

/-- packet/code/talktome.go:56-58 -/
def vlc (s : TalkToMe) : Bool :=
  (s &&& ((1 : UInt8) <<< 4)) > 0

/-- packet/code/talktome.go:61-77 -/
def str (s : TalkToMe) : String :=
  "TalkToMe: ReplyOnChange: " ++
  (if replyOnChange s then "yes" else "no") ++
  ", Diagnostics: " ++
  (if diagnostics s then "yes" else "no") ++
  " (as unicast: " ++
  (if diagUnicast s then "yes" else "no") ++
  "), VLC: " ++
  (if vlc s then "yes" else "no")

end TalkToMe

/-! ### packet/code/status1.go -/

/-- packet/code/status1.go:4 (`type Status1 uint8`) -/
abbrev Status1 := UInt8

namespace Status1

/-- packet/code/status1.go:9-14 -/
def withUBEA (s : Status1) (enable : Bool) : Status1 :=
  if enable then s ||| ((1 : UInt8) <<< 0) else s ||| ((0 : UInt8) <<< 0)

/-- packet/code/status1.go:17-19 -/
def ubea (s : Status1) : Bool :=
  (s &&& ((1 : UInt8) <<< 0)) > 0

/-- packet/code/status1.go:24-29 -/
def withRDM (s : Status1) (enable : Bool) : Status1 :=
  if enable then s ||| ((1 : UInt8) <<< 1) else s ||| ((0 : UInt8) <<< 1)

/-- packet/code/status1.go:32-34 -/
def rdm (s : Status1) : Bool :=
  (s &&& ((1 : UInt8) <<< 1)) > 0

/-- packet/code/status1.go:40-45 -/
def withBootROM (s : Status1) (enable : Bool) : Status1 :=
  if enable then s ||| ((1 : UInt8) <<< 2) else s ||| ((0 : UInt8) <<< 2)

/-- packet/code/status1.go:48-50 -/
def bootROM (s : Status1) : Bool :=
  (s &&& ((1 : UInt8) <<< 2)) > 0

/-- packet/code/status1.go:57-69 (the argument is an arbitrary string) -/
def withPortAddr (s : Status1) (v : String) : Status1 :=
  if v = "unknown" then s ||| ((0 : UInt8) <<< 4)
  else if v = "front" then s ||| ((1 : UInt8) <<< 4)
  else if v = "net" then s ||| ((2 : UInt8) <<< 4)
  else if v = "unused" then s ||| ((3 : UInt8) <<< 4)
  else s

/-- packet/code/status1.go:76-88 -/
def portAddr (s : Status1) : String :=
  let x := (s &&& (8 + 16)) >>> 4
  if x = 0 then "unknown"
  else if x = 1 then "front"
  else if x = 2 then "net"
  else if x = 3 then "unused"
  else "error"

/-- packet/code/status1.go:95-107 -/
def withIndicator (s : Status1) (v : String) : Status1 :=
  if v = "unknown" then s ||| ((0 : UInt8) <<< 6)
  else if v = "locate" then s ||| ((1 : UInt8) <<< 6)
  else if v = "mute" then s ||| ((2 : UInt8) <<< 6)
  else if v = "normal" then s ||| ((3 : UInt8) <<< 6)
  else s

/-- packet/code/status1.go:114-126 -/
def indicator (s : Status1) : String :=
  let x := (s &&& (32 + 64)) >>> 6
  if x = 0 then "unknown"
  else if x = 1 then "locate"
  else if x = 2 then "mutenet"
  else if x = 3 then "normal"
  else "error"

/-- packet/code/status1.go:129-144 -/
def str (s : Status1) : String :=
  "Status1: UBEA: " ++
  (if ubea s then "yes" else "no") ++
  ", RDM: " ++
  (if rdm s then "yes" else "no") ++
  ", BootRom: " ++
  (if bootROM s then "yes" else "no") ++
  ", PortAddr: " ++
  portAddr s ++
  ", Indicator: " ++
  indicator s

end Status1

/-! ### packet/code/status2.go -/

/-- packet/code/status2.go:4 (`type Status2 uint8`) -/
abbrev Status2 := UInt8

namespace Status2

/-- packet/code/status2.go:7-12 -/
def withBrowser (s : Status2) (enable : Bool) : Status2 :=
  if enable then s ||| ((1 : UInt8) <<< 0) else s ||| ((0 : UInt8) <<< 0)

/-- packet/code/status2.go:15-17 -/
def browser (s : Status2) : Bool :=
  (s &&& ((1 : UInt8) <<< 0)) > 0

/-- packet/code/status2.go:20-25 -/
def withDHCP (s : Status2) (enable : Bool) : Status2 :=
  if enable then s ||| ((1 : UInt8) <<< 1) else s ||| ((0 : UInt8) <<< 1)

/-- packet/code/status2.go:28-30 -/
def dhcp (s : Status2) : Bool :=
  (s &&& ((1 : UInt8) <<< 1)) > 0

/-- packet/code/status2.go:33-38 -/
def withDHCPCapable (s : Status2) (enable : Bool) : Status2 :=
  if enable then s ||| ((1 : UInt8) <<< 2) else s ||| ((0 : UInt8) <<< 2)

/-- packet/code/status2.go:41-43 -/
def dHCPCapable (s : Status2) : Bool :=
  (s &&& ((1 : UInt8) <<< 2)) > 0

/-- packet/code/status2.go:46-51 -/
def withPort15 (s : Status2) (enable : Bool) : Status2 :=
  if enable then s ||| ((1 : UInt8) <<< 3) else s ||| ((0 : UInt8) <<< 3)

/-- packet/code/status2.go:54-56 -/
def port15 (s : Status2) : Bool :=
  (s &&& ((1 : UInt8) <<< 3)) > 0

/-- packet/code/status2.go:59-64 -/
def withSwitch (s : Status2) (enable : Bool) : Status2 :=
  if enable then s ||| ((1 : UInt8) <<< 4) else s ||| ((0 : UInt8) <<< 4)

/-- packet/code/status2.go:67-69 -/
def switch (s : Status2) : Bool :=
  (s &&& ((1 : UInt8) <<< 4)) > 0

/-- packet/code/status2.go:72-77 -/
def withSquawk (s : Status2) (enable : Bool) : Status2 :=
  if enable then s ||| ((1 : UInt8) <<< 5) else s ||| ((0 : UInt8) <<< 5)

/-- packet/code/status2.go:80-82 -/
def squawk (s : Status2) : Bool :=
  (s &&& ((1 : UInt8) <<< 5)) > 0

/-- packet/code/status2.go:85-107 -/
def str (s : Status2) : String :=
  "Status2: Browser: " ++
  (if browser s then "yes" else "no") ++
  ", DHCP: " ++
  (if dhcp s then "yes" else "no") ++
  ", DHCPCapable: " ++
  (if dHCPCapable s then "yes" else "no") ++
  ", Port 15bit: " ++
  (if port15 s then "yes" else "no") ++
  ", CanSwitch: " ++
  (if switch s then "yes" else "no") ++
  ", Squawking: " ++
  (if squawk s then "yes" else "no")

end Status2

/-! ### packet/code/porttype.go -/

/-- packet/code/porttype.go:6 (`type PortType uint8`) -/
abbrev PortType := UInt8

namespace PortType

/-- packet/code/porttype.go:9-14 -/
def withInput (s : PortType) (enable : Bool) : PortType :=
  if enable then s ||| ((1 : UInt8) <<< 6) else s ||| ((0 : UInt8) <<< 6)

/-- packet/code/porttype.go:17-19 -/
def input (s : PortType) : Bool :=
  (s &&& ((1 : UInt8) <<< 6)) > 0

/-- packet/code/porttype.go:22-27 -/
def withOutput (s : PortType) (enable : Bool) : PortType :=
  if enable then s ||| ((1 : UInt8) <<< 7) else s ||| ((0 : UInt8) <<< 7)

/-- packet/code/porttype.go:30-32 -/
def output (s : PortType) : Bool :=
  (s &&& ((1 : UInt8) <<< 7)) > 0

/-- packet/code/porttype.go:36-52 -/
def withType (s : PortType) (v : String) : PortType :=
  if v = "DMX512" then s ||| 0x00
  else if v = "MIDI" then s ||| 0x01
  else if v = "Avab" then s ||| 0x02
  else if v = "Colortran CMX" then s ||| 0x03
  else if v = "ADB 62.5" then s ||| 0x04
  else if v = "Art-Net" then s ||| 0x05
  else s

/-- packet/code/porttype.go:56-72 -/
def type (s : PortType) : String :=
  let x := s &&& 0x1f
  if x = 0 then "DMX512"
  else if x = 1 then "MIDI"
  else if x = 2 then "Avab"
  else if x = 3 then "Colortran CMX"
  else if x = 4 then "ADB 62.5"
  else if x = 5 then "Art-Net"
  else "unknown"

/-- packet/code/porttype.go:75-86 -/
def str (s : PortType) : String :=
  "PortType: Type: " ++
  type s ++
  ", Output: " ++
  (if output s then "yes" else "no") ++
  ", Input: " ++
  (if input s then "yes" else "no")

end PortType

/-! ### packet/code/goodinput.go -/

/-- packet/code/goodinput.go:4 (`type GoodInput uint8`) -/
abbrev GoodInput := UInt8

namespace GoodInput

/-- packet/code/goodinput.go:7-12 -/
def withReceive (s : GoodInput) (enable : Bool) : GoodInput :=
  if enable then s ||| ((1 : UInt8) <<< 2) else s ||| ((0 : UInt8) <<< 2)

/-- packet/code/goodinput.go:15-17 -/
def receive (s : GoodInput) : Bool :=
  (s &&& ((1 : UInt8) <<< 2)) > 0

/-- packet/code/goodinput.go:20-25 -/
def withDisabled (s : GoodInput) (enable : Bool) : GoodInput :=
  if enable then s ||| ((1 : UInt8) <<< 3) else s ||| ((0 : UInt8) <<< 3)

/-- packet/code/goodinput.go:28-30 -/
def disabled (s : GoodInput) : Bool :=
  (s &&& ((1 : UInt8) <<< 3)) > 0

/-- packet/code/goodinput.go:33-38 -/
def withText (s : GoodInput) (enable : Bool) : GoodInput :=
  if enable then s ||| ((1 : UInt8) <<< 4) else s ||| ((0 : UInt8) <<< 4)

/-- packet/code/goodinput.go:41-43 -/
def text (s : GoodInput) : Bool :=
  (s &&& ((1 : UInt8) <<< 4)) > 0

/-- packet/code/goodinput.go:46-51 -/
def withSIP (s : GoodInput) (enable : Bool) : GoodInput :=
  if enable then s ||| ((1 : UInt8) <<< 5) else s ||| ((0 : UInt8) <<< 5)

/-- packet/code/goodinput.go:54-56 -/
def sip (s : GoodInput) : Bool :=
  (s &&& ((1 : UInt8) <<< 5)) > 0

/-- packet/code/goodinput.go:59-64 -/
def withTest (s : GoodInput) (enable : Bool) : GoodInput :=
  if enable then s ||| ((1 : UInt8) <<< 6) else s ||| ((0 : UInt8) <<< 6)

/-- packet/code/goodinput.go:67-69 -/
def test (s : GoodInput) : Bool :=
  (s &&& ((1 : UInt8) <<< 6)) > 0

/-- packet/code/goodinput.go:72-77 -/
def withData (s : GoodInput) (enable : Bool) : GoodInput :=
  if enable then s ||| ((1 : UInt8) <<< 7) else s ||| ((0 : UInt8) <<< 7)

/-- packet/code/goodinput.go:80-82 -/
def data (s : GoodInput) : Bool :=
  (s &&& ((1 : UInt8) <<< 7)) > 0

/-- packet/code/goodinput.go:85-107 -/
def str (s : GoodInput) : String :=
  "GoodInput: ReceiveErrors: " ++
  (if receive s then "yes" else "no") ++
  ", Disabled: " ++
  (if disabled s then "yes" else "no") ++
  ", DMX512Text: " ++
  (if text s then "yes" else "no") ++
  ", DMX512SIP: " ++
  (if sip s then "yes" else "no") ++
  ", DMX512Test: " ++
  (if test s then "yes" else "no") ++
  ", DataReceived: " ++
  (if data s then "yes" else "no")

end GoodInput

/-! ### packet/code/goodoutput.go -/

/-- packet/code/goodoutput.go:4 (`type GoodOutput uint8`) -/
abbrev GoodOutput := UInt8

namespace GoodOutput

/-- packet/code/goodoutput.go:7-12 -/
def withACN (s : GoodOutput) (enable : Bool) : GoodOutput :=
  if enable then s ||| ((1 : UInt8) <<< 0) else s ||| ((0 : UInt8) <<< 0)

/-- packet/code/goodoutput.go:15-17 -/
def acn (s : GoodOutput) : Bool :=
  (s &&& ((1 : UInt8) <<< 0)) > 0

/-- packet/code/goodoutput.go:20-25 -/
def withLTP (s : GoodOutput) (enable : Bool) : GoodOutput :=
  if enable then s ||| ((1 : UInt8) <<< 1) else s ||| ((0 : UInt8) <<< 1)

/-- packet/code/goodoutput.go:28-30 -/
def ltp (s : GoodOutput) : Bool :=
  (s &&& ((1 : UInt8) <<< 1)) > 0

/-- packet/code/goodoutput.go:33-38 -/
def withOutput (s : GoodOutput) (enable : Bool) : GoodOutput :=
  if enable then s ||| ((1 : UInt8) <<< 2) else s ||| ((0 : UInt8) <<< 2)

/-- packet/code/goodoutput.go:41-43 -/
def output (s : GoodOutput) : Bool :=
  (s &&& ((1 : UInt8) <<< 2)) > 0

/-- packet/code/goodoutput.go:46-51 -/
def withMerging (s : GoodOutput) (enable : Bool) : GoodOutput :=
  if enable then s ||| ((1 : UInt8) <<< 3) else s ||| ((0 : UInt8) <<< 3)

/-- packet/code/goodoutput.go:54-56 -/
def merging (s : GoodOutput) : Bool :=
  (s &&& ((1 : UInt8) <<< 3)) > 0

/-- packet/code/goodoutput.go:59-64 -/
def withText (s : GoodOutput) (enable : Bool) : GoodOutput :=
  if enable then s ||| ((1 : UInt8) <<< 4) else s ||| ((0 : UInt8) <<< 4)

/-- packet/code/goodoutput.go:67-69 -/
def text (s : GoodOutput) : Bool :=
  (s &&& ((1 : UInt8) <<< 4)) > 0

/-- packet/code/goodoutput.go:72-77 -/
def withSIP (s : GoodOutput) (enable : Bool) : GoodOutput :=
  if enable then s ||| ((1 : UInt8) <<< 5) else s ||| ((0 : UInt8) <<< 5)

/-- packet/code/goodoutput.go:80-82 -/
def sip (s : GoodOutput) : Bool :=
  (s &&& ((1 : UInt8) <<< 5)) > 0

/-- packet/code/goodoutput.go:85-90 -/
def withTest (s : GoodOutput) (enable : Bool) : GoodOutput :=
  if enable then s ||| ((1 : UInt8) <<< 6) else s ||| ((0 : UInt8) <<< 6)

/-- packet/code/goodoutput.go:93-95 -/
def test (s : GoodOutput) : Bool :=
  (s &&& ((1 : UInt8) <<< 6)) > 0

/-- packet/code/goodoutput.go:98-103 -/
def withData (s : GoodOutput) (enable : Bool) : GoodOutput :=
  if enable then s ||| ((1 : UInt8) <<< 7) else s ||| ((0 : UInt8) <<< 7)

/-- packet/code/goodoutput.go:106-108 -/
def data (s : GoodOutput) : Bool :=
  (s &&& ((1 : UInt8) <<< 7)) > 0

/-- packet/code/goodoutput.go:111-139 -/
def str (s : GoodOutput) : String :=
  "GoodOutput: OutputACN: " ++
  (if acn s then "yes" else "no") ++
  ", LTPMergeMode: " ++
  (if ltp s then "yes" else "no") ++
  ", OutputShort: " ++
  (if output s then "yes" else "no") ++
  ", Merging: " ++
  (if merging s then "yes" else "no") ++
  ", DMX512Text: " ++
  (if text s then "yes" else "no") ++
  ", DMX512SIP: " ++
  (if sip s then "yes" else "no") ++
  ", DMX512Test: " ++
  (if test s then "yes" else "no") ++
  ", DataSending: " ++
  (if data s then "yes" else "no")

end GoodOutput

/-! ### packet/code/swmacro.go -/

/-- packet/code/swmacro.go:8 (`type SwMacro uint8`) -/
abbrev SwMacro := UInt8

namespace SwMacro

/-- packet/code/swmacro.go:11-16 -/
def withMacro1 (s : SwMacro) (enable : Bool) : SwMacro :=
  if enable then s ||| ((1 : UInt8) <<< 0) else s ||| ((0 : UInt8) <<< 0)

/-- packet/code/swmacro.go:19-21 -/
def macro1 (s : SwMacro) : Bool :=
  (s &&& ((1 : UInt8) <<< 0)) > 0

/-- packet/code/swmacro.go:24-29 -/
def withMacro2 (s : SwMacro) (enable : Bool) : SwMacro :=
  if enable then s ||| ((1 : UInt8) <<< 1) else s ||| ((0 : UInt8) <<< 1)

/-- packet/code/swmacro.go:32-34 -/
def macro2 (s : SwMacro) : Bool :=
  (s &&& ((1 : UInt8) <<< 1)) > 0

/-- packet/code/swmacro.go:37-42 -/
def withMacro3 (s : SwMacro) (enable : Bool) : SwMacro :=
  if enable then s ||| ((1 : UInt8) <<< 2) else s ||| ((0 : UInt8) <<< 2)

/-- packet/code/swmacro.go:45-47 -/
def macro3 (s : SwMacro) : Bool :=
  (s &&& ((1 : UInt8) <<< 2)) > 0

/-- packet/code/swmacro.go:50-55 -/
def withMacro4 (s : SwMacro) (enable : Bool) : SwMacro :=
  if enable then s ||| ((1 : UInt8) <<< 3) else s ||| ((0 : UInt8) <<< 3)

/-- packet/code/swmacro.go:58-60 -/
def macro4 (s : SwMacro) : Bool :=
  (s &&& ((1 : UInt8) <<< 3)) > 0

/-- packet/code/swmacro.go:63-68 -/
def withMacro5 (s : SwMacro) (enable : Bool) : SwMacro :=
  if enable then s ||| ((1 : UInt8) <<< 4) else s ||| ((0 : UInt8) <<< 4)

/-- packet/code/swmacro.go:71-73 -/
def macro5 (s : SwMacro) : Bool :=
  (s &&& ((1 : UInt8) <<< 4)) > 0

/-- packet/code/swmacro.go:76-81 -/
def withMacro6 (s : SwMacro) (enable : Bool) : SwMacro :=
  if enable then s ||| ((1 : UInt8) <<< 5) else s ||| ((0 : UInt8) <<< 5)

/-- packet/code/swmacro.go:84-86 -/
def macro6 (s : SwMacro) : Bool :=
  (s &&& ((1 : UInt8) <<< 5)) > 0

/-- packet/code/swmacro.go:89-94 -/
def withMacro7 (s : SwMacro) (enable : Bool) : SwMacro :=
  if enable then s ||| ((1 : UInt8) <<< 6) else s ||| ((0 : UInt8) <<< 6)

/-- packet/code/swmacro.go:97-99 -/
def macro7 (s : SwMacro) : Bool :=
  (s &&& ((1 : UInt8) <<< 6)) > 0

/-- packet/code/swmacro.go:102-107 -/
def withMacro8 (s : SwMacro) (enable : Bool) : SwMacro :=
  if enable then s ||| ((1 : UInt8) <<< 7) else s ||| ((0 : UInt8) <<< 7)

/-- packet/code/swmacro.go:110-112 -/
def macro8 (s : SwMacro) : Bool :=
  (s &&& ((1 : UInt8) <<< 7)) > 0

/-- packet/code/swmacro.go:115-143 -/
def str (s : SwMacro) : String :=
  "SwMacro: Macro1: " ++
  (if macro1 s then "on" else "off") ++
  ", Macro2: " ++
  (if macro2 s then "on" else "off") ++
  ", Macro3: " ++
  (if macro3 s then "on" else "off") ++
  ", Macro4: " ++
  (if macro4 s then "on" else "off") ++
  ", Macro5: " ++
  (if macro5 s then "on" else "off") ++
  ", Macro6: " ++
  (if macro6 s then "on" else "off") ++
  ", Macro7: " ++
  (if macro7 s then "on" else "off") ++
  ", Macro8: " ++
  (if macro8 s then "on" else "off")

end SwMacro

/-! ### packet/code/swremote.go -/

/-- packet/code/swremote.go:8 (`type SwRemote uint8`) -/
abbrev SwRemote := UInt8

namespace SwRemote

/-- packet/code/swremote.go:11-16 -/
def withRemote1 (s : SwRemote) (enable : Bool) : SwRemote :=
  if enable then s ||| ((1 : UInt8) <<< 0) else s ||| ((0 : UInt8) <<< 0)

/-- packet/code/swremote.go:19-21 -/
def remote1 (s : SwRemote) : Bool :=
  (s &&& ((1 : UInt8) <<< 0)) > 0

/-- packet/code/swremote.go:24-29 -/
def withRemote2 (s : SwRemote) (enable : Bool) : SwRemote :=
  if enable then s ||| ((1 : UInt8) <<< 1) else s ||| ((0 : UInt8) <<< 1)

/-- packet/code/swremote.go:32-34 -/
def remote2 (s : SwRemote) : Bool :=
  (s &&& ((1 : UInt8) <<< 1)) > 0

/-- packet/code/swremote.go:37-42 -/
def withRemote3 (s : SwRemote) (enable : Bool) : SwRemote :=
  if enable then s ||| ((1 : UInt8) <<< 2) else s ||| ((0 : UInt8) <<< 2)

/-- packet/code/swremote.go:45-47 -/
def remote3 (s : SwRemote) : Bool :=
  (s &&& ((1 : UInt8) <<< 2)) > 0

/-- packet/code/swremote.go:50-55 -/
def withRemote4 (s : SwRemote) (enable : Bool) : SwRemote :=
  if enable then s ||| ((1 : UInt8) <<< 3) else s ||| ((0 : UInt8) <<< 3)

/-- packet/code/swremote.go:58-60 -/
def remote4 (s : SwRemote) : Bool :=
  (s &&& ((1 : UInt8) <<< 3)) > 0

/-- packet/code/swremote.go:63-68 -/
def withRemote5 (s : SwRemote) (enable : Bool) : SwRemote :=
  if enable then s ||| ((1 : UInt8) <<< 4) else s ||| ((0 : UInt8) <<< 4)

/-- packet/code/swremote.go:71-73 -/
def remote5 (s : SwRemote) : Bool :=
  (s &&& ((1 : UInt8) <<< 4)) > 0

/-- packet/code/swremote.go:76-81 -/
def withRemote6 (s : SwRemote) (enable : Bool) : SwRemote :=
  if enable then s ||| ((1 : UInt8) <<< 5) else s ||| ((0 : UInt8) <<< 5)

/-- packet/code/swremote.go:84-86 -/
def remote6 (s : SwRemote) : Bool :=
  (s &&& ((1 : UInt8) <<< 5)) > 0

/-- packet/code/swremote.go:89-94 -/
def withRemote7 (s : SwRemote) (enable : Bool) : SwRemote :=
  if enable then s ||| ((1 : UInt8) <<< 6) else s ||| ((0 : UInt8) <<< 6)

/-- packet/code/swremote.go:97-99 -/
def remote7 (s : SwRemote) : Bool :=
  (s &&& ((1 : UInt8) <<< 6)) > 0

/-- packet/code/swremote.go:102-107 -/
def withRemote8 (s : SwRemote) (enable : Bool) : SwRemote :=
  if enable then s ||| ((1 : UInt8) <<< 7) else s ||| ((0 : UInt8) <<< 7)

/-- packet/code/swremote.go:110-112 -/
def remote8 (s : SwRemote) : Bool :=
  (s &&& ((1 : UInt8) <<< 7)) > 0

/-- packet/code/swremote.go:115-143 -/
def str (s : SwRemote) : String :=
  "SwRemote: Remote1: " ++
  (if remote1 s then "on" else "off") ++
  ", Remote2: " ++
  (if remote2 s then "on" else "off") ++
  ", Remote3: " ++
  (if remote3 s then "on" else "off") ++
  ", Remote4: " ++
  (if remote4 s then "on" else "off") ++
  ", Remote5: " ++
  (if remote5 s then "on" else "off") ++
  ", Remote6: " ++
  (if remote6 s then "on" else "off") ++
  ", Remote7: " ++
  (if remote7 s then "on" else "off") ++
  ", Remote8: " ++
  (if remote8 s then "on" else "off")

end SwRemote

/-! ### packet/code/opcode.go -/

/-- packet/code/opcode.go:6 (`type OpCode uint16`) -/
abbrev OpCode := UInt16

namespace OpCode

/-- packet/code/opcode.go:16 -/
def opPoll : OpCode := 0x2000

/-- packet/code/opcode.go:19 -/
def opPollReply : OpCode := 0x2100

/-- packet/code/opcode.go:22 -/
def opDiagData : OpCode := 0x2300

/-- packet/code/opcode.go:25 -/
def opCommand : OpCode := 0x2400

/-- packet/code/opcode.go:28 -/
def opOutput : OpCode := 0x5000

/-- packet/code/opcode.go:31 -/
def opDMX : OpCode := opOutput

/-- packet/code/opcode.go:34 -/
def opNzs : OpCode := 0x5100

/-- packet/code/opcode.go:37 -/
def opSync : OpCode := 0x5200

/-- packet/code/opcode.go:40 -/
def opAddress : OpCode := 0x6000

/-- packet/code/opcode.go:43 -/
def opInput : OpCode := 0x7000

/-- packet/code/opcode.go:46 -/
def opTodRequest : OpCode := 0x8000

/-- packet/code/opcode.go:49 -/
def opTodData : OpCode := 0x8100

/-- packet/code/opcode.go:52 -/
def opTodControl : OpCode := 0x8200

/-- packet/code/opcode.go:55 -/
def opRdm : OpCode := 0x8300

/-- packet/code/opcode.go:58 -/
def opRdmSub : OpCode := 0x8400

/-- packet/code/opcode.go:61 -/
def opMedia : OpCode := 0x9000

/-- packet/code/opcode.go:64 -/
def opMediaPatch : OpCode := 0x9100

/-- packet/code/opcode.go:67 -/
def opMediaControl : OpCode := 0x9200

/-- packet/code/opcode.go:70 -/
def opMediaContrlReply : OpCode := 0x9300

/-- packet/code/opcode.go:73 -/
def opTimeCode : OpCode := 0x9700

/-- packet/code/opcode.go:76 -/
def opTimeSync : OpCode := 0x9800

/-- packet/code/opcode.go:79 -/
def opTrigger : OpCode := 0x9900

/-- packet/code/opcode.go:82 -/
def opDirectory : OpCode := 0x9a00

/-- packet/code/opcode.go:85 -/
def opDirectoryReply : OpCode := 0x9b00

/-- packet/code/opcode.go:88 -/
def opVideoSetup : OpCode := 0xa010

/-- packet/code/opcode.go:91 -/
def opVideoPalette : OpCode := 0xa020

/-- packet/code/opcode.go:94 -/
def opVideoData : OpCode := 0xa040

/-- packet/code/opcode.go:97 -/
def opMacMaster : OpCode := 0xf000

/-- packet/code/opcode.go:100 -/
def opMacSlave : OpCode := 0xf100

/-- packet/code/opcode.go:103 -/
def opFirmwareMaster : OpCode := 0xf200

/-- packet/code/opcode.go:106 -/
def opFirmwareReply : OpCode := 0xf300

/-- packet/code/opcode.go:109 -/
def opFileTnMaster : OpCode := 0xf400

/-- packet/code/opcode.go:112 -/
def opFileFnMaster : OpCode := 0xf500

/-- packet/code/opcode.go:115 -/
def opFileFnReply : OpCode := 0xf600

/-- packet/code/opcode.go:118 -/
def opIPProg : OpCode := 0xf800

/-- packet/code/opcode.go:121 -/
def opIPProgReply : OpCode := 0xf900

/-- packet/code/opcode_string.go:7 -/
def name : String :=
  "OpPollOpPollReplyOpDiagDataOpCommandOpOutputOpNzsOpSyncOpAddressOpInputOpTodRequestOpTodDataOpTodControlOpRdmOpRdmSubOpMediaOpMediaPatchOpMediaControlOpMediaContrlReplyOpTimeCodeOpTimeSyncOpTriggerOpDirectoryOpDirectoryReplyOpVideoSetupOpVideoPaletteOpVideoDataOpMacMasterOpMacSlaveOpFirmwareMasterOpFirmwareReplyOpFileTnMasterOpFileFnMasterOpFileFnReplyOpIPProgOpIPProgReply"

/-- packet/code/opcode_string.go:9-45, `_OpCode_map`: key, and the bounds of the slice of
`_OpCode_name` that is its value. -/
def mapTable : List (OpCode × Nat × Nat) := [
  (8192, 0, 6),
  (8448, 6, 17),
  (8960, 17, 27),
  (9216, 27, 36),
  (20480, 36, 44),
  (20736, 44, 49),
  (20992, 49, 55),
  (24576, 55, 64),
  (28672, 64, 71),
  (32768, 71, 83),
  (33024, 83, 92),
  (33280, 92, 104),
  (33536, 104, 109),
  (33792, 109, 117),
  (36864, 117, 124),
  (37120, 124, 136),
  (37376, 136, 150),
  (37632, 150, 168),
  (38656, 168, 178),
  (38912, 178, 188),
  (39168, 188, 197),
  (39424, 197, 208),
  (39680, 208, 224),
  (40976, 224, 236),
  (40992, 236, 250),
  (41024, 250, 261),
  (61440, 261, 272),
  (61696, 272, 282),
  (61952, 282, 298),
  (62208, 298, 313),
  (62464, 313, 327),
  (62720, 327, 341),
  (62976, 341, 354),
  (63488, 354, 362),
  (63744, 362, 375)]

/-- packet/code/opcode.go:9-12 -/
def validOp (o : OpCode) : Bool := (GoMap.get mapTable o).isSome

/-- packet/code/opcode_string.go:47-52; the slices are taken at package initialisation. -/
def str (i : OpCode) : Go String :=
  match GoMap.get mapTable i with
  | some (lo, hi) => strSlice name lo hi
  | none => .ok s!"OpCode({i.toNat})"

end OpCode

/-! ### packet/code/stylecode.go -/

/-- packet/code/stylecode.go:6 (`type StyleCode uint8`) -/
abbrev StyleCode := UInt8

namespace StyleCode

/-- packet/code/stylecode.go:18 -/
def stNode : StyleCode := 0x00

/-- packet/code/stylecode.go:21 -/
def stController : StyleCode := 0x01

/-- packet/code/stylecode.go:24 -/
def stMedia : StyleCode := 0x02

/-- packet/code/stylecode.go:27 -/
def stRoute : StyleCode := 0x03

/-- packet/code/stylecode.go:30 -/
def stBackup : StyleCode := 0x04

/-- packet/code/stylecode.go:33 -/
def stConfig : StyleCode := 0x05

/-- packet/code/stylecode.go:36 -/
def stVisual : StyleCode := 0x06

/-- packet/code/stylecode.go:39 -/
def name : String := "NodeControllerMediaRouteBackupConfigVisual"

/-- packet/code/stylecode.go:41 -/
def index : List UInt8 := [0, 4, 14, 19, 24, 30, 36, 42]

/-- packet/code/stylecode.go:9-14 -/
def validStyle (o : StyleCode) : Bool :=
  if o ≥ UInt8.ofNat (index.length - 1) then false else true

/-- packet/code/stylecode.go:43-48 -/
def str (i : StyleCode) : Go String :=
  if i ≥ UInt8.ofNat (index.length - 1) then .ok s!"StyleCode({i.toNat})"
  else do
    let lo ← idx index i.toNat
    let hi ← idx index (i + 1).toNat
    strSlice name lo.toNat hi.toNat

end StyleCode

/-! ### packet/code/nodereportcode.go -/

/-- packet/code/nodereportcode.go:6 (`type NodeReportCode uint8`) -/
abbrev NodeReportCode := UInt8

namespace NodeReportCode

/-- packet/code/nodereportcode.go:10 -/
def rcDebug : NodeReportCode := 0x00

/-- packet/code/nodereportcode.go:13 -/
def rcPowerOk : NodeReportCode := 0x01

/-- packet/code/nodereportcode.go:16 -/
def rcPowerFail : NodeReportCode := 0x02

/-- packet/code/nodereportcode.go:19 -/
def rcSocketWr1 : NodeReportCode := 0x03

/-- packet/code/nodereportcode.go:22 -/
def rcParseFail : NodeReportCode := 0x04

/-- packet/code/nodereportcode.go:25 -/
def rcUDPFail : NodeReportCode := 0x05

/-- packet/code/nodereportcode.go:28 -/
def rcShNameOk : NodeReportCode := 0x06

/-- packet/code/nodereportcode.go:31 -/
def rcLoNameOk : NodeReportCode := 0x07

/-- packet/code/nodereportcode.go:34 -/
def rcDmxError : NodeReportCode := 0x08

/-- packet/code/nodereportcode.go:37 -/
def rcDmxUDPFull : NodeReportCode := 0x09

/-- packet/code/nodereportcode.go:40 -/
def rcDmxRxFull : NodeReportCode := 0x0a

/-- packet/code/nodereportcode.go:43 -/
def rcSwitchErr : NodeReportCode := 0x0b

/-- packet/code/nodereportcode.go:46 -/
def rcConfigErr : NodeReportCode := 0x0c

/-- packet/code/nodereportcode.go:49 -/
def rcDmxShort : NodeReportCode := 0x0d

/-- packet/code/nodereportcode.go:52 -/
def rcFirmwareFail : NodeReportCode := 0x0e

/-- packet/code/nodereportcode.go:55 -/
def rcUserFail : NodeReportCode := 0x0f

/-- packet/code/nodereportcode.go:58 -/
def rcFactoryRes : NodeReportCode := 0x10

/-- packet/code/nodereportcode_string.go:7 -/
def name : String :=
  "RcDebugRcPowerOkRcPowerFailRcSocketWr1RcParseFailRcUDPFailRcShNameOkRcLoNameOkRcDmxErrorRcDmxUDPFullRcDmxRxFullRcSwitchErrRcConfigErrRcDmxShortRcFirmwareFailRcUserFailRcFactoryRes"

/-- packet/code/nodereportcode_string.go:9 -/
def index : List UInt8 := [0, 7, 16, 27, 38, 49, 58, 68, 78, 88, 100, 111, 122, 133, 143, 157, 167, 179]

/-- packet/code/nodereportcode_string.go:11-16 -/
def str (i : NodeReportCode) : Go String :=
  if i ≥ UInt8.ofNat (index.length - 1) then .ok s!"NodeReportCode({i.toNat})"
  else do
    let lo ← idx index i.toNat
    let hi ← idx index (i + 1).toNat
    strSlice name lo.toNat hi.toNat

end NodeReportCode

/-! ### packet/code/prioritycode.go -/

/-- packet/code/prioritycode.go:6 (`type PriorityCode uint8`) -/
abbrev PriorityCode := UInt8

namespace PriorityCode

/-- packet/code/prioritycode.go:10 -/
def dpAll : PriorityCode := 0x00

/-- packet/code/prioritycode.go:13 -/
def dpLow : PriorityCode := 0x10

/-- packet/code/prioritycode.go:16 -/
def dpMed : PriorityCode := 0x40

/-- packet/code/prioritycode.go:19 -/
def dpHigh : PriorityCode := 0x80

/-- packet/code/prioritycode.go:22 -/
def dpCritical : PriorityCode := 0xe0

/-- packet/code/prioritycode.go:26 -/
def dpVolatile : PriorityCode := 0xf0

/-- packet/code/prioritycode_string.go:25-42 (the index arrays of that file are not used by it) -/
def str (i : PriorityCode) : String :=
  if i = 0 then "DpAll"
  else if i = 16 then "DpLow"
  else if i = 64 then "DpMed"
  else if i = 128 then "DpHigh"
  else if i = 224 then "DpCritical"
  else if i = 240 then "DpVolatile"
  else s!"PriorityCode({i.toNat})"

end PriorityCode

end Code

namespace Version

/-- version/version.go:4 -/
def version : UInt16 := 0x0e00

/-- version/version.go:10-15 -/
def bytes : Arr 2 := ⟨[(version &&& 0xff).toUInt8, (version >>> 8).toUInt8], rfl⟩

end Version
end Verif
