import Verif.Model.Packet

/-!
The test vectors of the repository (`packet/*_test.go`, `version/version_test.go`), evaluated in the model.
They are tests of the model, not theorems: they show that the definitions read the Go source as its authors
tested it. Trailing zeros are written by `pad`.
-/
namespace Verif.Check

open Verif Verif.Packet Verif.Code

/-- The literal `[n]byte{l...}`. -/
def pad (n : Nat) (l : Bytes) : Arr n := (Arr.zero n).copyFrom l

/-- The literal `[]byte{l..., 0, ..., 0}` of length `n`. -/
def padded (n : Nat) (l : Bytes) : Bytes := (pad n l).val

-- packet/artdmx_test.go:12 TestArtDMXPacketMarshal, case Empty
example : ({ ArtDMX.new with
      hdr := ⟨artNet, OpCode.opDMX, Version.bytes⟩ } : ArtDMX).marshalBinary.2 =
    ((padded 530 [0x41, 0x72, 0x74, 0x2d, 0x4e, 0x65, 0x74, 0, 0, 0x50, 0, 0xe, 0, 0, 0, 0, 0x2]), none) := by
  decide +kernel

-- packet/artdmx_test.go:12 TestArtDMXPacketMarshal, case DMXControl3-WithCh123to255
example : ({ ArtDMX.new with
      hdr := ⟨artNet, OpCode.opDMX, Version.bytes⟩,
      sequence := 0x3f,
      data := pad 512 [0xff, 0xff, 0xff] } : ArtDMX).marshalBinary.2 =
    ((padded 530 [0x41, 0x72, 0x74, 0x2d, 0x4e, 0x65, 0x74, 0, 0, 0x50, 0, 0xe, 0x3f, 0, 0, 0, 0x2,
      0, 0xff, 0xff, 0xff]), none) := by
  decide +kernel

-- packet/artdmx_test.go:133 TestArtDMXPacketUnmarshal, case Empty
example : (ArtDMX.new.unmarshalBinary
    (padded 4096 [0x41, 0x72, 0x74, 0x2d, 0x4e, 0x65, 0x74, 0, 0, 0x50, 0, 0xe])).toOption.map Prod.snd =
    some (some Err.invalidPacket) := by
  decide +kernel

-- packet/artdmx_test.go:133 TestArtDMXPacketUnmarshal, case DMXControl3-WithCh123to255
example : (ArtDMX.new.unmarshalBinary
    (padded 4096 [0x41, 0x72, 0x74, 0x2d, 0x4e, 0x65, 0x74, 0, 0, 0x50, 0, 0xe, 0x3f, 0, 0, 0,
      0x2, 0, 0xff, 0xff, 0xff])).toOption =
    some ({ ArtDMX.new with
      hdr := ⟨artNet, OpCode.opDMX, Version.bytes⟩,
      sequence := 0x3f,
      length := 0x200,
      data := pad 512 [0xff, 0xff, 0xff] }, none) := by
  decide +kernel

-- packet/artdmx_test.go:133 TestArtDMXPacketUnmarshal, case Short-WithCh123to255
example : (ArtDMX.new.unmarshalBinary
    (padded 4096 [0x41, 0x72, 0x74, 0x2d, 0x4e, 0x65, 0x74, 0, 0, 0x50, 0, 0xe, 0x3f, 0, 0, 0, 0,
      0x4, 0xff, 0xff, 0xff])).toOption =
    some ({ ArtDMX.new with
      hdr := ⟨artNet, OpCode.opDMX, Version.bytes⟩,
      sequence := 0x3f,
      length := 0x4,
      data := pad 512 [0xff, 0xff, 0xff] }, none) := by
  decide +kernel

-- packet/artpoll_test.go:12 TestArtPollPacketMarshal, case Empty
example : ({ ArtPoll.new with
      hdr := ⟨artNet, OpCode.opPoll, Version.bytes⟩ } : ArtPoll).marshalBinary.2 =
    ((padded 14 [0x41, 0x72, 0x74, 0x2d, 0x4e, 0x65, 0x74, 0, 0, 0x20, 0, 0xe]), none) := by
  decide +kernel

-- packet/artpoll_test.go:12 TestArtPollPacketMarshal, case WithDiagnosticsPrioLow
example : ({ ArtPoll.new with
      hdr := ⟨artNet, OpCode.opPoll, Version.bytes⟩,
      talkToMe := (TalkToMe.withDiagnostics 0 true),
      priority := PriorityCode.dpLow } : ArtPoll).marshalBinary.2 =
    ((padded 14 [0x41, 0x72, 0x74, 0x2d, 0x4e, 0x65, 0x74, 0, 0, 0x20, 0, 0xe, 0x4, 0x10]), none) := by
  decide +kernel

-- packet/artpoll_test.go:12 TestArtPollPacketMarshal, case WithDiagnosticsUniPrioMedium
example : ({ ArtPoll.new with
      hdr := ⟨artNet, OpCode.opPoll, Version.bytes⟩,
      talkToMe := (TalkToMe.withDiagUnicast (TalkToMe.withDiagnostics 0 true) true),
      priority := PriorityCode.dpMed } : ArtPoll).marshalBinary.2 =
    ((padded 14 [0x41, 0x72, 0x74, 0x2d, 0x4e, 0x65, 0x74, 0, 0, 0x20, 0, 0xe, 0xc, 0x40]), none) := by
  decide +kernel

-- packet/artpoll_test.go:12 TestArtPollPacketMarshal, case WithReplyOnChangeVlcPrioVolatile
example : ({ ArtPoll.new with
      hdr := ⟨artNet, OpCode.opPoll, Version.bytes⟩,
      talkToMe := (TalkToMe.withVLC (TalkToMe.withReplyOnChange 0 true) true),
      priority := PriorityCode.dpVolatile } : ArtPoll).marshalBinary.2 =
    ((padded 14 [0x41, 0x72, 0x74, 0x2d, 0x4e, 0x65, 0x74, 0, 0, 0x20, 0, 0xe, 0x12, 0xf0]), none) := by
  decide +kernel

-- packet/artpoll_test.go:12 TestArtPollPacketMarshal, case ArtNetominator
example : ({ ArtPoll.new with
      hdr := ⟨artNet, OpCode.opPoll, pad 2 [0, 0xe]⟩,
      talkToMe := (TalkToMe.withReplyOnChange 0 false),
      priority := PriorityCode.dpAll } : ArtPoll).marshalBinary.2 =
    ((padded 14 [0x41, 0x72, 0x74, 0x2d, 0x4e, 0x65, 0x74, 0, 0, 0x20, 0, 0xe]), none) := by
  decide +kernel

-- packet/artpoll_test.go:12 TestArtPollPacketMarshal, case DMXControl3
example : ({ ArtPoll.new with
      hdr := ⟨artNet, OpCode.opPoll, pad 2 [0, 0xe]⟩,
      talkToMe := (TalkToMe.withReplyOnChange 0 true),
      priority := PriorityCode.dpCritical } : ArtPoll).marshalBinary.2 =
    ((padded 14 [0x41, 0x72, 0x74, 0x2d, 0x4e, 0x65, 0x74, 0, 0, 0x20, 0, 0xe, 0x2, 0xe0]), none) := by
  decide +kernel

-- packet/artpoll_test.go:133 TestArtPollPacketUnmarshal, case Empty
example : ArtPoll.new.unmarshalBinary
    (padded 14 [0x41, 0x72, 0x74, 0x2d, 0x4e, 0x65, 0x74, 0, 0, 0x20, 0, 0xe]) =
    ({ ArtPoll.new with
      hdr := ⟨artNet, OpCode.opPoll, Version.bytes⟩ }, none) := by
  decide +kernel

-- packet/artpoll_test.go:133 TestArtPollPacketUnmarshal, case WithDiagnosticsPrioLow
example : ArtPoll.new.unmarshalBinary
    (padded 14 [0x41, 0x72, 0x74, 0x2d, 0x4e, 0x65, 0x74, 0, 0, 0x20, 0, 0xe, 0x4, 0x10]) =
    ({ ArtPoll.new with
      hdr := ⟨artNet, OpCode.opPoll, Version.bytes⟩,
      talkToMe := (TalkToMe.withDiagnostics 0 true),
      priority := PriorityCode.dpLow }, none) := by
  decide +kernel

-- packet/artpoll_test.go:133 TestArtPollPacketUnmarshal, case WithDiagnosticsUniPrioMedium
example : ArtPoll.new.unmarshalBinary
    (padded 14 [0x41, 0x72, 0x74, 0x2d, 0x4e, 0x65, 0x74, 0, 0, 0x20, 0, 0xe, 0xc, 0x40]) =
    ({ ArtPoll.new with
      hdr := ⟨artNet, OpCode.opPoll, Version.bytes⟩,
      talkToMe := (TalkToMe.withDiagUnicast (TalkToMe.withDiagnostics 0 true) true),
      priority := PriorityCode.dpMed }, none) := by
  decide +kernel

-- packet/artpoll_test.go:133 TestArtPollPacketUnmarshal, case WithReplyOnChangeVlcPrioVolatile
example : ArtPoll.new.unmarshalBinary
    (padded 14 [0x41, 0x72, 0x74, 0x2d, 0x4e, 0x65, 0x74, 0, 0, 0x20, 0, 0xe, 0x12, 0xf0]) =
    ({ ArtPoll.new with
      hdr := ⟨artNet, OpCode.opPoll, Version.bytes⟩,
      talkToMe := (TalkToMe.withVLC (TalkToMe.withReplyOnChange 0 true) true),
      priority := PriorityCode.dpVolatile }, none) := by
  decide +kernel

-- packet/artpoll_test.go:133 TestArtPollPacketUnmarshal, case ArtNetominator
example : ArtPoll.new.unmarshalBinary
    (padded 14 [0x41, 0x72, 0x74, 0x2d, 0x4e, 0x65, 0x74, 0, 0, 0x20, 0, 0xe]) =
    ({ ArtPoll.new with
      hdr := ⟨artNet, OpCode.opPoll, pad 2 [0, 0xe]⟩,
      talkToMe := (TalkToMe.withReplyOnChange 0 false),
      priority := PriorityCode.dpAll }, none) := by
  decide +kernel

-- packet/artpoll_test.go:133 TestArtPollPacketUnmarshal, case DMXControl3
example : ArtPoll.new.unmarshalBinary
    (padded 14 [0x41, 0x72, 0x74, 0x2d, 0x4e, 0x65, 0x74, 0, 0, 0x20, 0, 0xe, 0x2, 0xe0]) =
    ({ ArtPoll.new with
      hdr := ⟨artNet, OpCode.opPoll, pad 2 [0, 0xe]⟩,
      talkToMe := (TalkToMe.withReplyOnChange 0 true),
      priority := PriorityCode.dpCritical }, none) := by
  decide +kernel

-- packet/artpollreply_test.go:11 TestArtPollReplyPacketMarshal, case Empty
example : ({ ArtPollReply.new with
      id := artNet,
      opCode := OpCode.opPollReply,
      port := artNetPort } : ArtPollReply).marshalBinary.2 =
    ((padded 239 [0x41, 0x72, 0x74, 0x2d, 0x4e, 0x65, 0x74, 0, 0, 0x21, 0, 0, 0, 0, 0x36, 0x19]), none) := by
  decide +kernel

-- packet/artpollreply_test.go:11 TestArtPollReplyPacketMarshal, case WithInfo
example : ({ ArtPollReply.new with
      id := artNet,
      opCode := OpCode.opPollReply,
      ipAddress := pad 4 [0xa, 0x1, 0x1, 0x1],
      port := artNetPort,
      versionInfo := 0xf00d,
      netSwitch := 0xeb,
      subSwitch := 0xbe,
      oem := 0xcccc,
      ubeaVersion := 0xaa,
      status1 := (Status1.withUBEA 0 true),
      estaManufacturer := pad 2 [0xff, 0xff],
      shortName := pad 18 [0x31, 0x32, 0x33, 0x34, 0x35, 0x36, 0x37, 0x38, 0x39, 0x30, 0x31, 0x32, 0x33,
          0x34, 0x35, 0x36, 0x37, 0x38],
      longName := pad 64 [0x41, 0x42, 0x43, 0x44, 0x45, 0x46, 0x47, 0x48, 0x49, 0x4a, 0x4b, 0x4c, 0x4d,
          0x4e, 0x4f, 0x50, 0x41, 0x42, 0x43, 0x44, 0x45, 0x46, 0x47, 0x48, 0x49, 0x4a, 0x4b,
          0x4c, 0x4d, 0x4e, 0x4f, 0x50, 0x41, 0x42, 0x43, 0x44, 0x45, 0x46, 0x47, 0x48, 0x49,
          0x4a, 0x4b, 0x4c, 0x4d, 0x4e, 0x4f, 0x50, 0x41, 0x42, 0x43, 0x44, 0x45, 0x46, 0x47,
          0x48, 0x49, 0x4a, 0x4b, 0x4c, 0x4d, 0x4e, 0x4f, 0x50],
      nodeReport := pad 64 [NodeReportCode.rcFactoryRes],
      numPorts := 0xffff,
      portTypes := pad 4 [(PortType.withType 0 "DMX512"), (PortType.withType 0 "DMX512"),
          (PortType.withType 0 "DMX512"), (PortType.withType 0 "DMX512")],
      goodInput := pad 4 [(GoodInput.withReceive 0 true), (GoodInput.withReceive 0 false),
          (GoodInput.withReceive 0 false), (GoodInput.withReceive 0 false)],
      goodOutput := pad 4 [(GoodOutput.withACN 0 true), (GoodOutput.withACN 0 false),
          (GoodOutput.withACN 0 false), (GoodOutput.withACN 0 false)],
      swIn := pad 4 [0x20, 0x40, 0x60, 0x80],
      swOut := pad 4 [0x10, 0x30, 0x50, 0x70],
      swVideo := 0xff,
      swMacro := (SwMacro.withMacro1 0 true),
      swRemote := (SwRemote.withRemote1 0 true),
      style := StyleCode.stController,
      macaddress := pad 6 [0, 0x50, 0x56, 0xc0, 0, 0x2],
      bindIP := pad 4 [0xa, 0x1, 0x1, 0x1],
      bindIndex := 0xee,
      status2 := (Status2.withBrowser 0 true) } : ArtPollReply).marshalBinary.2 =
    ((padded 239 [0x41, 0x72, 0x74, 0x2d, 0x4e, 0x65, 0x74, 0, 0, 0x21, 0xa, 0x1, 0x1, 0x1, 0x36,
      0x19, 0xf0, 0xd, 0xeb, 0xbe, 0xcc, 0xcc, 0xaa, 0x1, 0xff, 0xff, 0x31, 0x32, 0x33, 0x34,
      0x35, 0x36, 0x37, 0x38, 0x39, 0x30, 0x31, 0x32, 0x33, 0x34, 0x35, 0x36, 0x37, 0x38, 0x41,
      0x42, 0x43, 0x44, 0x45, 0x46, 0x47, 0x48, 0x49, 0x4a, 0x4b, 0x4c, 0x4d, 0x4e, 0x4f, 0x50,
      0x41, 0x42, 0x43, 0x44, 0x45, 0x46, 0x47, 0x48, 0x49, 0x4a, 0x4b, 0x4c, 0x4d, 0x4e, 0x4f,
      0x50, 0x41, 0x42, 0x43, 0x44, 0x45, 0x46, 0x47, 0x48, 0x49, 0x4a, 0x4b, 0x4c, 0x4d, 0x4e,
      0x4f, 0x50, 0x41, 0x42, 0x43, 0x44, 0x45, 0x46, 0x47, 0x48, 0x49, 0x4a, 0x4b, 0x4c, 0x4d,
      0x4e, 0x4f, 0x50, 0x10, 0, 0, 0, 0, 0, 0, 0, 0, 0, 0, 0, 0, 0, 0, 0, 0, 0, 0, 0, 0, 0, 0,
      0, 0, 0, 0, 0, 0, 0, 0, 0, 0, 0, 0, 0, 0, 0, 0, 0, 0, 0, 0, 0, 0, 0, 0, 0, 0, 0, 0, 0, 0,
      0, 0, 0, 0, 0, 0, 0, 0, 0, 0, 0, 0xff, 0xff, 0, 0, 0, 0, 0x4, 0, 0, 0, 0x1, 0, 0, 0, 0x20,
      0x40, 0x60, 0x80, 0x10, 0x30, 0x50, 0x70, 0xff, 0x1, 0x1, 0, 0, 0, 0x1, 0, 0x50, 0x56,
      0xc0, 0, 0x2, 0xa, 0x1, 0x1, 0x1, 0xee, 0x1]), none) := by
  decide +kernel

-- packet/artpollreply_test.go:11 TestArtPollReplyPacketMarshal, case ArtNetominator
example : ({ ArtPollReply.new with
      id := artNet,
      opCode := OpCode.opPollReply,
      ipAddress := pad 4 [0xa, 0xa, 0x1, 0xb6],
      port := artNetPort,
      versionInfo := 0,
      netSwitch := 0,
      subSwitch := 0,
      oem := 0xffff,
      ubeaVersion := 0,
      status1 := (Status1.withIndicator (Status1.withPortAddr 0 "unused") "normal"),
      estaManufacturer := pad 2 [],
      shortName := pad 18 [0x41, 0x72, 0x74, 0x4e, 0x65, 0x74, 0x6f, 0x6d, 0x69, 0x6e, 0x61, 0x74, 0x6f, 0x72],
      longName := pad 64 [0x41, 0x72, 0x74, 0x4e, 0x65, 0x74, 0x6f, 0x6d, 0x69, 0x6e, 0x61, 0x74, 0x6f,
          0x72, 0x20, 0x69, 0x73, 0x20, 0x77, 0x61, 0x74, 0x63, 0x68, 0x69, 0x6e, 0x67, 0x20,
          0x79, 0x6f, 0x75, 0x2e],
      numPorts := 0,
      nodeReport := pad 64 [0x49, 0x6e, 0x70, 0x75, 0x74, 0x20, 0x73, 0x75, 0x62, 0x6e, 0x65, 0x74, 0x3a,
          0x20, 0x30, 0x20, 0x4f, 0x75, 0x74, 0x70, 0x75, 0x74, 0x20, 0x73, 0x75, 0x62, 0x6e,
          0x65, 0x74, 0x3a, 0x20, 0x30, 0x2e],
      portTypes := pad 4 [(PortType.withInput (PortType.withType 0 "Art-Net") true),
          (PortType.withInput (PortType.withType 0 "Art-Net") true),
          (PortType.withInput (PortType.withType 0 "Art-Net") true),
          (PortType.withInput (PortType.withType 0 "Art-Net") true)],
      swOut := pad 4 [0x1],
      style := StyleCode.stNode,
      macaddress := pad 6 [0x5c, 0x51, 0x4f, 0x8b, 0x4a, 0x2f],
      bindIP := pad 4 [],
      status2 := (Status2.withBrowser 0 false) } : ArtPollReply).marshalBinary.2 =
    ((padded 239 [0x41, 0x72, 0x74, 0x2d, 0x4e, 0x65, 0x74, 0, 0, 0x21, 0xa, 0xa, 0x1, 0xb6, 0x36,
      0x19, 0, 0, 0, 0, 0xff, 0xff, 0, 0xf0, 0, 0, 0x41, 0x72, 0x74, 0x4e, 0x65, 0x74, 0x6f,
      0x6d, 0x69, 0x6e, 0x61, 0x74, 0x6f, 0x72, 0, 0, 0, 0, 0x41, 0x72, 0x74, 0x4e, 0x65, 0x74,
      0x6f, 0x6d, 0x69, 0x6e, 0x61, 0x74, 0x6f, 0x72, 0x20, 0x69, 0x73, 0x20, 0x77, 0x61, 0x74,
      0x63, 0x68, 0x69, 0x6e, 0x67, 0x20, 0x79, 0x6f, 0x75, 0x2e, 0, 0, 0, 0, 0, 0, 0, 0, 0, 0,
      0, 0, 0, 0, 0, 0, 0, 0, 0, 0, 0, 0, 0, 0, 0, 0, 0, 0, 0, 0, 0, 0, 0, 0x49, 0x6e, 0x70,
      0x75, 0x74, 0x20, 0x73, 0x75, 0x62, 0x6e, 0x65, 0x74, 0x3a, 0x20, 0x30, 0x20, 0x4f, 0x75,
      0x74, 0x70, 0x75, 0x74, 0x20, 0x73, 0x75, 0x62, 0x6e, 0x65, 0x74, 0x3a, 0x20, 0x30, 0x2e,
      0, 0, 0, 0, 0, 0, 0, 0, 0, 0, 0, 0, 0, 0, 0, 0, 0, 0, 0, 0, 0, 0, 0, 0, 0, 0, 0, 0, 0, 0,
      0, 0, 0, 0x45, 0x45, 0x45, 0x45, 0, 0, 0, 0, 0, 0, 0, 0, 0, 0, 0, 0, 0x1, 0, 0, 0, 0, 0, 0,
      0, 0, 0, 0, 0x5c, 0x51, 0x4f, 0x8b, 0x4a, 0x2f]), none) := by
  decide +kernel

-- packet/artpollreply_test.go:11 TestArtPollReplyPacketMarshal, case SoundlightDMX512
example : ({ ArtPollReply.new with
      id := artNet,
      opCode := OpCode.opPollReply,
      ipAddress := pad 4 [0x2, 0xe7, 0x14, 0x24],
      port := artNetPort,
      versionInfo := 0xe,
      netSwitch := 0,
      subSwitch := 0,
      oem := 0x3b0,
      ubeaVersion := 0,
      status1 := (Status1.withIndicator (Status1.withPortAddr 0 "net") "normal"),
      estaManufacturer := pad 2 [],
      shortName := pad 18 [0x73, 0x6c, 0x65, 0x73, 0x61, 0x2d, 0x69, 0x70, 0x31],
      longName := pad 64 [0x73, 0x6c, 0x65, 0x73, 0x61, 0x2d, 0x69, 0x70, 0x31],
      numPorts := 0x1,
      nodeReport := pad 64 [],
      portTypes := pad 4 [(PortType.withOutput (PortType.withType 0 "DMX512") true)],
      goodOutput := pad 4 [(GoodOutput.withData 0 true)],
      style := StyleCode.stNode,
      macaddress := pad 6 [0, 0x50, 0xc2, 0x37, 0x14, 0x24],
      status2 := (Status2.withBrowser 0 false) } : ArtPollReply).marshalBinary.2 =
    ((padded 239 [0x41, 0x72, 0x74, 0x2d, 0x4e, 0x65, 0x74, 0, 0, 0x21, 0x2, 0xe7, 0x14, 0x24,
      0x36, 0x19, 0, 0xe, 0, 0, 0x3, 0xb0, 0, 0xe0, 0, 0, 0x73, 0x6c, 0x65, 0x73, 0x61, 0x2d,
      0x69, 0x70, 0x31, 0, 0, 0, 0, 0, 0, 0, 0, 0, 0x73, 0x6c, 0x65, 0x73, 0x61, 0x2d, 0x69,
      0x70, 0x31, 0, 0, 0, 0, 0, 0, 0, 0, 0, 0, 0, 0, 0, 0, 0, 0, 0, 0, 0, 0, 0, 0, 0, 0, 0, 0,
      0, 0, 0, 0, 0, 0, 0, 0, 0, 0, 0, 0, 0, 0, 0, 0, 0, 0, 0, 0, 0, 0, 0, 0, 0, 0, 0, 0, 0, 0,
      0, 0, 0, 0, 0, 0, 0, 0, 0, 0, 0, 0, 0, 0, 0, 0, 0, 0, 0, 0, 0, 0, 0, 0, 0, 0, 0, 0, 0, 0,
      0, 0, 0, 0, 0, 0, 0, 0, 0, 0, 0, 0, 0, 0, 0, 0, 0, 0, 0, 0, 0, 0, 0, 0, 0, 0, 0, 0, 0, 0,
      0, 0, 0, 0, 0x1, 0x80, 0, 0, 0, 0, 0, 0, 0, 0x80, 0, 0, 0, 0, 0, 0, 0, 0, 0, 0, 0, 0, 0, 0,
      0, 0, 0, 0, 0, 0x50, 0xc2, 0x37, 0x14, 0x24]), none) := by
  decide +kernel

-- packet/artpollreply_test.go:11 TestArtPollReplyPacketMarshal, case DMXControl3
example : ({ ArtPollReply.new with
      id := artNet,
      opCode := OpCode.opPollReply,
      ipAddress := pad 4 [0xc0, 0xa8, 0, 0xa],
      port := artNetPort,
      versionInfo := 0,
      netSwitch := 0,
      subSwitch := 0,
      oem := 0x8b0,
      ubeaVersion := 0,
      status1 := (Status1.withPortAddr 0 "unknown"),
      estaManufacturer := pad 2 [],
      shortName := pad 18 [0x44, 0x4d, 0x58, 0x43, 0x20, 0x33, 0x20, 0x28, 0x33, 0x31, 0x4a, 0x53, 0x49, 0x4d],
      longName := pad 64 [0x44, 0x4d, 0x58, 0x43, 0x6f, 0x6e, 0x74, 0x72, 0x6f, 0x6c, 0x20, 0x33, 0x20,
          0x28, 0x33, 0x31, 0x4a, 0x53, 0x49, 0x4d, 0x4f, 0x4e, 0x45, 0x54, 0x54, 0x49, 0x31, 0x29],
      nodeReport := pad 64 [0x30, 0x30, 0x30, 0x31, 0x20, 0x5b, 0x30, 0x30, 0x30, 0x30, 0x5d, 0x20, 0x6c,
          0x69, 0x62, 0x61, 0x72, 0x74, 0x6e, 0x65, 0x74],
      numPorts := 0x4,
      portTypes := pad 4 [
          (PortType.withInput (PortType.withOutput (PortType.withType 0 "DMX512") true) true),
          (PortType.withInput (PortType.withOutput (PortType.withType 0 "DMX512") true) true),
          (PortType.withInput (PortType.withOutput (PortType.withType 0 "DMX512") true) true),
          (PortType.withInput (PortType.withOutput (PortType.withType 0 "DMX512") true) true)],
      goodInput := pad 4 [(GoodInput.withData 0 true)],
      swIn := pad 4 [0, 0x1, 0x2, 0x3],
      swOut := pad 4 [0x4, 0x5, 0x6, 0x7],
      style := StyleCode.stController,
      macaddress := pad 6 [0x3c, 0x97, 0xe, 0xd7, 0xee, 0x2f],
      status2 := (Status2.withPort15 0 true) } : ArtPollReply).marshalBinary.2 =
    ((padded 239 [0x41, 0x72, 0x74, 0x2d, 0x4e, 0x65, 0x74, 0, 0, 0x21, 0xc0, 0xa8, 0, 0xa, 0x36,
      0x19, 0, 0, 0, 0, 0x8, 0xb0, 0, 0, 0, 0, 0x44, 0x4d, 0x58, 0x43, 0x20, 0x33, 0x20, 0x28,
      0x33, 0x31, 0x4a, 0x53, 0x49, 0x4d, 0, 0, 0, 0, 0x44, 0x4d, 0x58, 0x43, 0x6f, 0x6e, 0x74,
      0x72, 0x6f, 0x6c, 0x20, 0x33, 0x20, 0x28, 0x33, 0x31, 0x4a, 0x53, 0x49, 0x4d, 0x4f, 0x4e,
      0x45, 0x54, 0x54, 0x49, 0x31, 0x29, 0, 0, 0, 0, 0, 0, 0, 0, 0, 0, 0, 0, 0, 0, 0, 0, 0, 0,
      0, 0, 0, 0, 0, 0, 0, 0, 0, 0, 0, 0, 0, 0, 0, 0, 0, 0, 0x30, 0x30, 0x30, 0x31, 0x20, 0x5b,
      0x30, 0x30, 0x30, 0x30, 0x5d, 0x20, 0x6c, 0x69, 0x62, 0x61, 0x72, 0x74, 0x6e, 0x65, 0x74,
      0, 0, 0, 0, 0, 0, 0, 0, 0, 0, 0, 0, 0, 0, 0, 0, 0, 0, 0, 0, 0, 0, 0, 0, 0, 0, 0, 0, 0, 0,
      0, 0, 0, 0, 0, 0, 0, 0, 0, 0, 0, 0, 0, 0, 0x4, 0xc0, 0xc0, 0xc0, 0xc0, 0x80, 0, 0, 0, 0, 0,
      0, 0, 0, 0x1, 0x2, 0x3, 0x4, 0x5, 0x6, 0x7, 0, 0, 0, 0, 0, 0, 0x1, 0x3c, 0x97, 0xe, 0xd7,
      0xee, 0x2f, 0, 0, 0, 0, 0, 0x8]), none) := by
  decide +kernel

-- packet/artpollreply_test.go:295 TestArtPollReplyPacketUnmarshal, case Empty
example : ArtPollReply.new.unmarshalBinary
    (padded 4096 [0x41, 0x72, 0x74, 0x2d, 0x4e, 0x65, 0x74, 0, 0, 0x21, 0, 0, 0, 0, 0x36, 0x19]) =
    ({ ArtPollReply.new with
      id := artNet,
      opCode := OpCode.opPollReply,
      port := artNetPort }, none) := by
  decide +kernel

-- packet/artpollreply_test.go:295 TestArtPollReplyPacketUnmarshal, case WithInfo
example : ArtPollReply.new.unmarshalBinary
    (padded 4096 [0x41, 0x72, 0x74, 0x2d, 0x4e, 0x65, 0x74, 0, 0, 0x21, 0xa, 0x1, 0x1, 0x1, 0x36,
      0x19, 0xf0, 0xd, 0xeb, 0xbe, 0xcc, 0xcc, 0xaa, 0x1, 0xff, 0xff, 0x31, 0x32, 0x33, 0x34,
      0x35, 0x36, 0x37, 0x38, 0x39, 0x30, 0x31, 0x32, 0x33, 0x34, 0x35, 0x36, 0x37, 0x38, 0x41,
      0x42, 0x43, 0x44, 0x45, 0x46, 0x47, 0x48, 0x49, 0x4a, 0x4b, 0x4c, 0x4d, 0x4e, 0x4f, 0x50,
      0x41, 0x42, 0x43, 0x44, 0x45, 0x46, 0x47, 0x48, 0x49, 0x4a, 0x4b, 0x4c, 0x4d, 0x4e, 0x4f,
      0x50, 0x41, 0x42, 0x43, 0x44, 0x45, 0x46, 0x47, 0x48, 0x49, 0x4a, 0x4b, 0x4c, 0x4d, 0x4e,
      0x4f, 0x50, 0x41, 0x42, 0x43, 0x44, 0x45, 0x46, 0x47, 0x48, 0x49, 0x4a, 0x4b, 0x4c, 0x4d,
      0x4e, 0x4f, 0x50, 0x10, 0, 0, 0, 0, 0, 0, 0, 0, 0, 0, 0, 0, 0, 0, 0, 0, 0, 0, 0, 0, 0, 0,
      0, 0, 0, 0, 0, 0, 0, 0, 0, 0, 0, 0, 0, 0, 0, 0, 0, 0, 0, 0, 0, 0, 0, 0, 0, 0, 0, 0, 0, 0,
      0, 0, 0, 0, 0, 0, 0, 0, 0, 0, 0, 0xff, 0xff, 0, 0, 0, 0, 0x4, 0, 0, 0, 0x1, 0, 0, 0, 0x20,
      0x40, 0x60, 0x80, 0x10, 0x30, 0x50, 0x70, 0xff, 0x1, 0x1, 0, 0, 0, 0x1, 0, 0x50, 0x56,
      0xc0, 0, 0x2, 0xa, 0x1, 0x1, 0x1, 0xee, 0x1]) =
    ({ ArtPollReply.new with
      id := artNet,
      opCode := OpCode.opPollReply,
      ipAddress := pad 4 [0xa, 0x1, 0x1, 0x1],
      port := artNetPort,
      versionInfo := 0xf00d,
      netSwitch := 0xeb,
      subSwitch := 0xbe,
      oem := 0xcccc,
      ubeaVersion := 0xaa,
      status1 := (Status1.withUBEA 0 true),
      estaManufacturer := pad 2 [0xff, 0xff],
      shortName := pad 18 [0x31, 0x32, 0x33, 0x34, 0x35, 0x36, 0x37, 0x38, 0x39, 0x30, 0x31, 0x32, 0x33,
          0x34, 0x35, 0x36, 0x37, 0x38],
      longName := pad 64 [0x41, 0x42, 0x43, 0x44, 0x45, 0x46, 0x47, 0x48, 0x49, 0x4a, 0x4b, 0x4c, 0x4d,
          0x4e, 0x4f, 0x50, 0x41, 0x42, 0x43, 0x44, 0x45, 0x46, 0x47, 0x48, 0x49, 0x4a, 0x4b,
          0x4c, 0x4d, 0x4e, 0x4f, 0x50, 0x41, 0x42, 0x43, 0x44, 0x45, 0x46, 0x47, 0x48, 0x49,
          0x4a, 0x4b, 0x4c, 0x4d, 0x4e, 0x4f, 0x50, 0x41, 0x42, 0x43, 0x44, 0x45, 0x46, 0x47,
          0x48, 0x49, 0x4a, 0x4b, 0x4c, 0x4d, 0x4e, 0x4f, 0x50],
      nodeReport := pad 64 [NodeReportCode.rcFactoryRes],
      numPorts := 0xffff,
      portTypes := pad 4 [(PortType.withType 0 "DMX512"), (PortType.withType 0 "DMX512"),
          (PortType.withType 0 "DMX512"), (PortType.withType 0 "DMX512")],
      goodInput := pad 4 [(GoodInput.withReceive 0 true), (GoodInput.withReceive 0 false),
          (GoodInput.withReceive 0 false), (GoodInput.withReceive 0 false)],
      goodOutput := pad 4 [(GoodOutput.withACN 0 true), (GoodOutput.withACN 0 false),
          (GoodOutput.withACN 0 false), (GoodOutput.withACN 0 false)],
      swIn := pad 4 [0x20, 0x40, 0x60, 0x80],
      swOut := pad 4 [0x10, 0x30, 0x50, 0x70],
      swVideo := 0xff,
      swMacro := (SwMacro.withMacro1 0 true),
      swRemote := (SwRemote.withRemote1 0 true),
      style := StyleCode.stController,
      macaddress := pad 6 [0, 0x50, 0x56, 0xc0, 0, 0x2],
      bindIP := pad 4 [0xa, 0x1, 0x1, 0x1],
      bindIndex := 0xee,
      status2 := (Status2.withBrowser 0 true) }, none) := by
  decide +kernel

-- packet/artpollreply_test.go:295 TestArtPollReplyPacketUnmarshal, case ArtNetominator
example : ArtPollReply.new.unmarshalBinary
    (padded 4096 [0x41, 0x72, 0x74, 0x2d, 0x4e, 0x65, 0x74, 0, 0, 0x21, 0xa, 0xa, 0x1, 0xb6, 0x36,
      0x19, 0, 0, 0, 0, 0xff, 0xff, 0, 0xf0, 0, 0, 0x41, 0x72, 0x74, 0x4e, 0x65, 0x74, 0x6f,
      0x6d, 0x69, 0x6e, 0x61, 0x74, 0x6f, 0x72, 0, 0, 0, 0, 0x41, 0x72, 0x74, 0x4e, 0x65, 0x74,
      0x6f, 0x6d, 0x69, 0x6e, 0x61, 0x74, 0x6f, 0x72, 0x20, 0x69, 0x73, 0x20, 0x77, 0x61, 0x74,
      0x63, 0x68, 0x69, 0x6e, 0x67, 0x20, 0x79, 0x6f, 0x75, 0x2e, 0, 0, 0, 0, 0, 0, 0, 0, 0, 0,
      0, 0, 0, 0, 0, 0, 0, 0, 0, 0, 0, 0, 0, 0, 0, 0, 0, 0, 0, 0, 0, 0, 0, 0x49, 0x6e, 0x70,
      0x75, 0x74, 0x20, 0x73, 0x75, 0x62, 0x6e, 0x65, 0x74, 0x3a, 0x20, 0x30, 0x20, 0x4f, 0x75,
      0x74, 0x70, 0x75, 0x74, 0x20, 0x73, 0x75, 0x62, 0x6e, 0x65, 0x74, 0x3a, 0x20, 0x30, 0x2e,
      0, 0, 0, 0, 0, 0, 0, 0, 0, 0, 0, 0, 0, 0, 0, 0, 0, 0, 0, 0, 0, 0, 0, 0, 0, 0, 0, 0, 0, 0,
      0, 0, 0, 0x45, 0x45, 0x45, 0x45, 0, 0, 0, 0, 0, 0, 0, 0, 0, 0, 0, 0, 0x1, 0, 0, 0, 0, 0, 0,
      0, 0, 0, 0, 0x5c, 0x51, 0x4f, 0x8b, 0x4a, 0x2f]) =
    ({ ArtPollReply.new with
      id := artNet,
      opCode := OpCode.opPollReply,
      ipAddress := pad 4 [0xa, 0xa, 0x1, 0xb6],
      port := artNetPort,
      versionInfo := 0,
      netSwitch := 0,
      subSwitch := 0,
      oem := 0xffff,
      ubeaVersion := 0,
      status1 := (Status1.withIndicator (Status1.withPortAddr 0 "unused") "normal"),
      estaManufacturer := pad 2 [],
      shortName := pad 18 [0x41, 0x72, 0x74, 0x4e, 0x65, 0x74, 0x6f, 0x6d, 0x69, 0x6e, 0x61, 0x74, 0x6f, 0x72],
      longName := pad 64 [0x41, 0x72, 0x74, 0x4e, 0x65, 0x74, 0x6f, 0x6d, 0x69, 0x6e, 0x61, 0x74, 0x6f,
          0x72, 0x20, 0x69, 0x73, 0x20, 0x77, 0x61, 0x74, 0x63, 0x68, 0x69, 0x6e, 0x67, 0x20,
          0x79, 0x6f, 0x75, 0x2e],
      numPorts := 0,
      nodeReport := pad 64 [0x49, 0x6e, 0x70, 0x75, 0x74, 0x20, 0x73, 0x75, 0x62, 0x6e, 0x65, 0x74, 0x3a,
          0x20, 0x30, 0x20, 0x4f, 0x75, 0x74, 0x70, 0x75, 0x74, 0x20, 0x73, 0x75, 0x62, 0x6e,
          0x65, 0x74, 0x3a, 0x20, 0x30, 0x2e],
      portTypes := pad 4 [(PortType.withInput (PortType.withType 0 "Art-Net") true),
          (PortType.withInput (PortType.withType 0 "Art-Net") true),
          (PortType.withInput (PortType.withType 0 "Art-Net") true),
          (PortType.withInput (PortType.withType 0 "Art-Net") true)],
      swOut := pad 4 [0x1],
      style := StyleCode.stNode,
      macaddress := pad 6 [0x5c, 0x51, 0x4f, 0x8b, 0x4a, 0x2f],
      bindIP := pad 4 [],
      status2 := (Status2.withBrowser 0 false) }, none) := by
  decide +kernel

-- packet/artpollreply_test.go:295 TestArtPollReplyPacketUnmarshal, case SoundlightDMX512
example : ArtPollReply.new.unmarshalBinary
    (padded 4096 [0x41, 0x72, 0x74, 0x2d, 0x4e, 0x65, 0x74, 0, 0, 0x21, 0x2, 0xe7, 0x14, 0x24,
      0x19, 0x36, 0, 0xe, 0, 0, 0x3, 0xb0, 0, 0xe0, 0, 0, 0x73, 0x6c, 0x65, 0x73, 0x61, 0x2d,
      0x69, 0x70, 0x31, 0, 0, 0, 0, 0, 0, 0, 0, 0, 0x73, 0x6c, 0x65, 0x73, 0x61, 0x2d, 0x69,
      0x70, 0x31, 0, 0, 0, 0, 0, 0, 0, 0, 0, 0, 0, 0, 0, 0, 0, 0, 0, 0, 0, 0, 0, 0, 0, 0, 0, 0,
      0, 0, 0, 0, 0, 0, 0, 0, 0, 0, 0, 0, 0, 0, 0, 0, 0, 0, 0, 0, 0, 0, 0, 0, 0, 0, 0, 0, 0, 0,
      0, 0, 0, 0, 0, 0, 0, 0, 0, 0, 0, 0, 0, 0, 0, 0, 0, 0, 0, 0, 0, 0, 0, 0, 0, 0, 0, 0, 0, 0,
      0, 0, 0, 0, 0, 0, 0, 0, 0, 0, 0, 0, 0, 0, 0, 0, 0, 0, 0, 0, 0, 0, 0, 0, 0, 0, 0, 0, 0, 0,
      0, 0, 0, 0, 0x1, 0x80, 0, 0, 0, 0, 0, 0, 0, 0x80, 0, 0, 0, 0, 0, 0, 0, 0, 0, 0, 0, 0, 0, 0,
      0, 0, 0, 0, 0, 0x50, 0xc2, 0x37, 0x14, 0x24]) =
    ({ ArtPollReply.new with
      id := artNet,
      opCode := OpCode.opPollReply,
      ipAddress := pad 4 [0x2, 0xe7, 0x14, 0x24],
      port := artNetPort,
      versionInfo := 0xe,
      netSwitch := 0,
      subSwitch := 0,
      oem := 0x3b0,
      ubeaVersion := 0,
      status1 := (Status1.withIndicator (Status1.withPortAddr 0 "net") "normal"),
      estaManufacturer := pad 2 [],
      shortName := pad 18 [0x73, 0x6c, 0x65, 0x73, 0x61, 0x2d, 0x69, 0x70, 0x31],
      longName := pad 64 [0x73, 0x6c, 0x65, 0x73, 0x61, 0x2d, 0x69, 0x70, 0x31],
      numPorts := 0x1,
      nodeReport := pad 64 [],
      portTypes := pad 4 [(PortType.withOutput (PortType.withType 0 "DMX512") true)],
      goodOutput := pad 4 [(GoodOutput.withData 0 true)],
      style := StyleCode.stNode,
      macaddress := pad 6 [0, 0x50, 0xc2, 0x37, 0x14, 0x24],
      status2 := (Status2.withBrowser 0 false) }, none) := by
  decide +kernel

-- packet/artpollreply_test.go:295 TestArtPollReplyPacketUnmarshal, case DMXControl3
example : ArtPollReply.new.unmarshalBinary
    (padded 4096 [0x41, 0x72, 0x74, 0x2d, 0x4e, 0x65, 0x74, 0, 0, 0x21, 0xc0, 0xa8, 0, 0xa, 0x36,
      0x19, 0, 0, 0, 0, 0x8, 0xb0, 0, 0, 0, 0, 0x44, 0x4d, 0x58, 0x43, 0x20, 0x33, 0x20, 0x28,
      0x33, 0x31, 0x4a, 0x53, 0x49, 0x4d, 0, 0, 0, 0, 0x44, 0x4d, 0x58, 0x43, 0x6f, 0x6e, 0x74,
      0x72, 0x6f, 0x6c, 0x20, 0x33, 0x20, 0x28, 0x33, 0x31, 0x4a, 0x53, 0x49, 0x4d, 0x4f, 0x4e,
      0x45, 0x54, 0x54, 0x49, 0x31, 0x29, 0, 0, 0, 0, 0, 0, 0, 0, 0, 0, 0, 0, 0, 0, 0, 0, 0, 0,
      0, 0, 0, 0, 0, 0, 0, 0, 0, 0, 0, 0, 0, 0, 0, 0, 0, 0, 0x30, 0x30, 0x30, 0x31, 0x20, 0x5b,
      0x30, 0x30, 0x30, 0x30, 0x5d, 0x20, 0x6c, 0x69, 0x62, 0x61, 0x72, 0x74, 0x6e, 0x65, 0x74,
      0, 0, 0, 0, 0, 0, 0, 0, 0, 0, 0, 0, 0, 0, 0, 0, 0, 0, 0, 0, 0, 0, 0, 0, 0, 0, 0, 0, 0, 0,
      0, 0, 0, 0, 0, 0, 0, 0, 0, 0, 0, 0, 0, 0, 0x4, 0xc0, 0xc0, 0xc0, 0xc0, 0x80, 0, 0, 0, 0, 0,
      0, 0, 0, 0x1, 0x2, 0x3, 0x4, 0x5, 0x6, 0x7, 0, 0, 0, 0, 0, 0, 0x1, 0x3c, 0x97, 0xe, 0xd7,
      0xee, 0x2f, 0, 0, 0, 0, 0, 0x8]) =
    ({ ArtPollReply.new with
      id := artNet,
      opCode := OpCode.opPollReply,
      ipAddress := pad 4 [0xc0, 0xa8, 0, 0xa],
      port := artNetPort,
      versionInfo := 0,
      netSwitch := 0,
      subSwitch := 0,
      oem := 0x8b0,
      ubeaVersion := 0,
      status1 := (Status1.withPortAddr 0 "unknown"),
      estaManufacturer := pad 2 [],
      shortName := pad 18 [0x44, 0x4d, 0x58, 0x43, 0x20, 0x33, 0x20, 0x28, 0x33, 0x31, 0x4a, 0x53, 0x49, 0x4d],
      longName := pad 64 [0x44, 0x4d, 0x58, 0x43, 0x6f, 0x6e, 0x74, 0x72, 0x6f, 0x6c, 0x20, 0x33, 0x20,
          0x28, 0x33, 0x31, 0x4a, 0x53, 0x49, 0x4d, 0x4f, 0x4e, 0x45, 0x54, 0x54, 0x49, 0x31, 0x29],
      nodeReport := pad 64 [0x30, 0x30, 0x30, 0x31, 0x20, 0x5b, 0x30, 0x30, 0x30, 0x30, 0x5d, 0x20, 0x6c,
          0x69, 0x62, 0x61, 0x72, 0x74, 0x6e, 0x65, 0x74],
      numPorts := 0x4,
      portTypes := pad 4 [
          (PortType.withInput (PortType.withOutput (PortType.withType 0 "DMX512") true) true),
          (PortType.withInput (PortType.withOutput (PortType.withType 0 "DMX512") true) true),
          (PortType.withInput (PortType.withOutput (PortType.withType 0 "DMX512") true) true),
          (PortType.withInput (PortType.withOutput (PortType.withType 0 "DMX512") true) true)],
      goodInput := pad 4 [(GoodInput.withData 0 true)],
      swIn := pad 4 [0, 0x1, 0x2, 0x3],
      swOut := pad 4 [0x4, 0x5, 0x6, 0x7],
      style := StyleCode.stController,
      macaddress := pad 6 [0x3c, 0x97, 0xe, 0xd7, 0xee, 0x2f],
      status2 := (Status2.withPort15 0 true) }, none) := by
  decide +kernel

-- packet/packet_test.go:11 TestUnmarshal, case 0
example : (unmarshal
    (padded 14 [0x41, 0x72, 0x74, 0x2d, 0x4e, 0x65, 0x74, 0, 0, 0x20, 0, 0xe, 0x2])).toOption =
    some (some (.poll { ArtPoll.new with
      hdr := ⟨artNet, OpCode.opPoll, Version.bytes⟩,
      talkToMe := (TalkToMe.withReplyOnChange 0 true) }), none) := by
  decide +kernel

-- packet/packet_test.go:11 TestUnmarshal, case 1
example : (unmarshal
    (padded 239 [0x41, 0x72, 0x74, 0x2d, 0x4e, 0x65, 0x74, 0, 0, 0x21, 0x2, 0, 0, 0x14, 0x36,
      0x19, 0, 0, 0, 0, 0, 0, 0, 0, 0, 0, 0x62, 0x61, 0x72, 0x61, 0x64, 0x64, 0x75, 0x72, 0, 0,
      0, 0, 0, 0, 0, 0, 0, 0, 0, 0, 0, 0, 0, 0, 0, 0, 0, 0, 0, 0, 0, 0, 0, 0, 0, 0, 0, 0, 0, 0,
      0, 0, 0, 0, 0, 0, 0, 0, 0, 0, 0, 0, 0, 0, 0, 0, 0, 0, 0, 0, 0, 0, 0, 0, 0, 0, 0, 0, 0, 0,
      0, 0, 0, 0, 0, 0, 0, 0, 0, 0, 0, 0, 0, 0, 0, 0, 0, 0, 0, 0, 0, 0, 0, 0, 0, 0, 0, 0, 0, 0,
      0, 0, 0, 0, 0, 0, 0, 0, 0, 0, 0, 0, 0, 0, 0, 0, 0, 0, 0, 0, 0, 0, 0, 0, 0, 0, 0, 0, 0, 0,
      0, 0, 0, 0, 0, 0, 0, 0, 0, 0, 0, 0, 0, 0, 0, 0, 0, 0, 0, 0, 0, 0, 0, 0, 0, 0, 0, 0, 0, 0,
      0, 0, 0, 0, 0, 0, 0, 0, 0, 0, 0, 0, 0, 0, 0x1])).toOption =
    some (some (.pollReply { ArtPollReply.new with
      id := artNet,
      opCode := OpCode.opPollReply,
      ipAddress := pad 4 [0x2, 0, 0, 0x14],
      port := artNetPort,
      estaManufacturer := pad 2 [],
      shortName := pad 18 [0x62, 0x61, 0x72, 0x61, 0x64, 0x64, 0x75, 0x72],
      longName := pad 64 [],
      nodeReport := pad 64 [],
      portTypes := pad 4 [],
      goodInput := pad 4 [],
      goodOutput := pad 4 [],
      swIn := pad 4 [],
      swOut := pad 4 [],
      style := StyleCode.stController,
      macaddress := pad 6 [],
      bindIP := pad 4 [] }), none) := by
  decide +kernel

-- packet/packet_test.go:11 TestUnmarshal, case 2
example : (unmarshal
    (padded 530 [0x41, 0x72, 0x74, 0x2d, 0x4e, 0x65, 0x74, 0, 0, 0x50, 0, 0xe, 0xb3, 0, 0x7, 0,
      0x2, 0, 0, 0, 0, 0x14, 0, 0, 0, 0x14, 0, 0, 0, 0x14, 0, 0, 0, 0x14, 0, 0, 0, 0x14, 0, 0, 0,
      0x14, 0, 0, 0, 0x14, 0, 0, 0, 0x14, 0, 0, 0, 0x14, 0, 0, 0, 0x14, 0, 0, 0, 0x14, 0, 0, 0,
      0x14, 0, 0, 0, 0x14, 0, 0, 0, 0x14, 0, 0, 0, 0x14, 0, 0, 0, 0x14])).toOption =
    some (some (.dmx { ArtDMX.new with
      hdr := ⟨artNet, OpCode.opDMX, Version.bytes⟩,
      sequence := 0xb3,
      physical := 0,
      subUni := 0x7,
      net := 0,
      length := 0x200,
      data := pad 512 [0, 0, 0, 0x14, 0, 0, 0, 0x14, 0, 0, 0, 0x14, 0, 0, 0, 0x14, 0, 0, 0, 0x14, 0, 0,
          0, 0x14, 0, 0, 0, 0x14, 0, 0, 0, 0x14, 0, 0, 0, 0x14, 0, 0, 0, 0x14, 0, 0, 0, 0x14, 0,
          0, 0, 0x14, 0, 0, 0, 0x14, 0, 0, 0, 0x14, 0, 0, 0, 0x14, 0, 0, 0, 0x14] }), none) := by
  decide +kernel

/-- packet/header_test.go:45-51 `makePkg` (`opCodeToBytes` writes little endian) -/
def makePkg (opCode : OpCode) (data : Bytes) : Bytes :=
  artNet.val ++ [opCode.toUInt8, (opCode >>> 8).toUInt8] ++ data

-- packet/header_test.go:13 TestHeaderValidate
example : (Header.zero.unmarshal (makePkg OpCode.opPoll [Version.bytes.get 0, Version.bytes.get 1])).toOption.map Prod.snd =
    some (none) := by
  decide +kernel
example : (Header.zero.unmarshal (makePkg OpCode.opPoll [Version.bytes.get 0, 0x00])).toOption.map Prod.snd =
    some (some (.incompatibleVersion 0)) := by
  decide +kernel
example : (Header.zero.unmarshal (makePkg OpCode.opPoll [Version.bytes.get 0, 0x0f])).toOption.map Prod.snd =
    some (none) := by
  decide +kernel
example : (Header.zero.unmarshal (makePkg OpCode.opPollReply [2, 0, 0, 10])).toOption.map Prod.snd =
    some (none) := by
  decide +kernel
example : (Header.zero.unmarshal (makePkg OpCode.opPollReply [2, 14, 0, 10])).toOption.map Prod.snd =
    some (none) := by
  decide +kernel
example : (Header.zero.unmarshal (makePkg OpCode.opPollReply [2, 16, 0, 10])).toOption.map Prod.snd =
    some (none) := by
  decide +kernel
example : (Header.zero.unmarshal (makePkg OpCode.opPollReply [2, 100, 0, 10])).toOption.map Prod.snd =
    some (none) := by
  decide +kernel
example : (Header.zero.unmarshal (makePkg OpCode.opPollReply [192, 168, 0, 10])).toOption.map Prod.snd =
    some (none) := by
  decide +kernel
example : (Header.zero.unmarshal (makePkg OpCode.opPollReply [10, 0, 0, 10])).toOption.map Prod.snd =
    some (none) := by
  decide +kernel
example : (Header.zero.unmarshal (makePkg OpCode.opPollReply [10, 10, 0, 10])).toOption.map Prod.snd =
    some (none) := by
  decide +kernel
example : (Header.zero.unmarshal (makePkg OpCode.opPollReply [10, 20, 0, 10])).toOption.map Prod.snd =
    some (none) := by
  decide +kernel
example : (Header.zero.unmarshal (makePkg OpCode.opPollReply [10, 30, 0, 10])).toOption.map Prod.snd =
    some (none) := by
  decide +kernel
example : (Header.zero.unmarshal (makePkg OpCode.opPollReply [10, 30, 0, 10])).toOption.map Prod.snd =
    some (none) := by
  decide +kernel

-- version/version_test.go:7 TestVersion, case V14
example : Version.bytes.val = [0x0, 0x0e] := by decide +kernel

end Verif.Check
