import Verif.Go.Binary
import Verif.Model.Code
/-
Model of package `packet`: header.go, the twelve implemented packet types, and Unmarshal.
A pointer-receiver method returns the new value of the receiver; `error` is `Option Err`.
-/
namespace Verif
namespace Packet
open Code

/-- Errors returned by the package (message texts are not modelled; the parameters are the values
interpolated in the message or attached by `%w`). packet/header.go:16-22 and the `fmt.Errorf` calls. -/
inductive Err
  /-- header.go:17 -/
  | incorrectHeaderLength
  /-- header.go:18 -/
  | invalidPacket
  /-- header.go:19, returned by a packet's own validate -/
  | invalidOpCode
  /-- header.go:19 wrapped at packet.go:72 -/
  | invalidOpCodeDispatch (o : OpCode)
  /-- header.go:20 -/
  | invalidStyleCode
  /-- header.go:21 wrapped at packet.go:70 -/
  | notImplementedOpCode (o : OpCode)
  /-- packet.go:17,38 (OpInput) -/
  | unimplemented (o : OpCode)
  /-- header.go:86 -/
  | incompatibleVersion (got : UInt8)
  /-- artpollreply.go:174 -/
  | invalidPort (got : UInt16)
  /-- error of encoding/binary.Read, header.go:115 -/
  | read (e : ReadErr)
  deriving DecidableEq, Repr

/-- packet/header.go:34 -/
def artNet : Arr 8 := ⟨[0x41, 0x72, 0x74, 0x2d, 0x4e, 0x65, 0x74, 0x00], rfl⟩

/-- packet/header.go:37 -/
def artNetPort : UInt16 := 6454

/-- packet/header.go:121-123 (Go precedence: `(x>>8) + (x<<8)`) -/
def swapUint16 (x : UInt16) : UInt16 := (x >>> 8) + (x <<< 8)

/-- packet/header.go:40-51 -/
structure Header where
  id : Arr 8
  opCode : OpCode
  version : Arr 2
  deriving DecidableEq, Repr

/-- `Header{}` -/
def Header.zero : Header := ⟨Arr.zero 8, 0, Arr.zero 2⟩

/-- packet/header.go:54-56 -/
def Header.getOpCode (p : Header) : OpCode := p.opCode

/-- packet/header.go:100-102 -/
def Header.swapOpCode (p : Header) : Header := { p with opCode := swapUint16 p.opCode }

/-- packet/header.go:74-91 -/
def Header.validate (p : Header) : Header × Option Err :=
  if p.id ≠ artNet then (p, some .invalidPacket)
  else
    let p := p.swapOpCode
    if p.opCode ≠ OpCode.opPollReply then
      if p.version.get 1 < Version.bytes.get 1 then
        (p, some (.incompatibleVersion (p.version.get 1)))
      else (p, none)
    else (p, none)

/-- packet/header.go:58-72 -/
def Header.unmarshal (p : Header) (b : Bytes) : Go (Header × Option Err) :=
  if b.length < 12 then .ok (p, some .incorrectHeaderLength)
  else do
    let b0 ← idx b 0
    let b1 ← idx b 1
    let b2 ← idx b 2
    let b3 ← idx b 3
    let b4 ← idx b 4
    let b5 ← idx b 5
    let b6 ← idx b 6
    let b7 ← idx b 7
    let p := { p with id := ⟨[b0, b1, b2, b3, b4, b5, b6, b7], rfl⟩ }
    let b8 ← idx b 8
    let b9 ← idx b 9
    let p := { p with opCode := getBE16 b8 b9 }
    if p.opCode ≠ OpCode.opPollReply then do
      let b10 ← idx b 10
      let b11 ← idx b 11
      let p := { p with version := ⟨[b10, b11], rfl⟩ }
      pure p.validate
    else
      pure p.validate

/-- packet/header.go:94-98 -/
def Header.finish (p : Header) : Header :=
  let p := { p with id := artNet }
  let p := { p with version := Version.bytes }
  p.swapOpCode

/-- packet/header.go:25-31: the unexported part of the `ArtNetPacket` interface together with the
struct layout that `encoding/binary` sees. -/
class ArtNetPacket (α : Type) extends GoStruct α where
  validate : α → α × Option Err
  finish : α → α
  getOpCode : α → OpCode

/-- packet/header.go:104-111: the receiver is modified by finish; `binary.Write` cannot fail. -/
def marshalPacket {α : Type} [ArtNetPacket α] (p : α) : α × Bytes × Option Err :=
  let p := ArtNetPacket.finish p
  (p, binaryWrite p, none)

/-- packet/header.go:113-119 -/
def unmarshalPacket {α : Type} [ArtNetPacket α] (p : α) (b : Bytes) : α × Option Err :=
  match binaryRead p b with
  | (p, some e) => (p, some (.read e))
  | (p, none) => ArtNetPacket.validate p

/-! ### packet/artpoll.go -/

/-- packet/artpoll.go:39-48 -/
structure ArtPoll where
  hdr : Header
  talkToMe : UInt8
  priority : UInt8
  deriving DecidableEq, Repr

namespace ArtPoll

/-- packet/artpoll.go:51-53 (`&ArtPollPacket{}`) -/
def new : ArtPoll :=
  ⟨Header.zero, 0, 0⟩

/-- Field layout of the struct at packet/artpoll.go:39-48 -/
instance : GoStruct ArtPoll where
  layout := [.arr 8, .u16, .arr 2, .u8, .u8]
  toVals p := (p.hdr.id, p.hdr.opCode, p.hdr.version, p.talkToMe, p.priority, ())
  ofVals := fun (id, opCode, version, talkToMe, priority, _) =>
    ⟨⟨id, opCode, version⟩, talkToMe, priority⟩

/-- packet/artpoll.go:66-74 -/
def validate (p : ArtPoll) : ArtPoll × Option Err :=
  match p.hdr.validate with
  | (h, some e) => ({ p with hdr := h }, some e)
  | (h, none) =>
    let p := { p with hdr := h }
    if p.hdr.opCode ≠ OpCode.opPoll then (p, some .invalidOpCode)
    else (p, none)

/-- packet/artpoll.go:77-80 -/
def finish (p : ArtPoll) : ArtPoll :=
  let p := { p with hdr.opCode := OpCode.opPoll }
  { p with hdr := p.hdr.finish }

instance : ArtNetPacket ArtPoll where
  validate := validate
  finish := finish
  getOpCode p := p.hdr.getOpCode

/-- packet/artpoll.go:56-58 -/
def marshalBinary (p : ArtPoll) : ArtPoll × Bytes × Option Err := marshalPacket p

/-- packet/artpoll.go:61-63 -/
def unmarshalBinary (p : ArtPoll) (b : Bytes) : ArtPoll × Option Err := unmarshalPacket p b

end ArtPoll

/-! ### packet/artpollreply.go -/

/-- packet/artpollreply.go:20-135 (does not embed Header) -/
structure ArtPollReply where
  id : Arr 8
  opCode : OpCode
  ipAddress : Arr 4
  port : UInt16
  versionInfo : UInt16
  netSwitch : UInt8
  subSwitch : UInt8
  oem : UInt16
  ubeaVersion : UInt8
  status1 : Status1
  estaManufacturer : Arr 2
  shortName : Arr 18
  longName : Arr 64
  nodeReport : Arr 64
  numPorts : UInt16
  portTypes : Arr 4
  goodInput : Arr 4
  goodOutput : Arr 4
  swIn : Arr 4
  swOut : Arr 4
  swVideo : UInt8
  swMacro : SwMacro
  swRemote : SwRemote
  style : StyleCode
  macaddress : Arr 6
  bindIP : Arr 4
  bindIndex : UInt8
  status2 : Status2
  deriving DecidableEq, Repr

namespace ArtPollReply

/-- packet/artpollreply.go:138-140 (`&ArtPollReplyPacket{}`) -/
def new : ArtPollReply where
  id := Arr.zero 8
  opCode := 0
  ipAddress := Arr.zero 4
  port := 0
  versionInfo := 0
  netSwitch := 0
  subSwitch := 0
  oem := 0
  ubeaVersion := 0
  status1 := 0
  estaManufacturer := Arr.zero 2
  shortName := Arr.zero 18
  longName := Arr.zero 64
  nodeReport := Arr.zero 64
  numPorts := 0
  portTypes := Arr.zero 4
  goodInput := Arr.zero 4
  goodOutput := Arr.zero 4
  swIn := Arr.zero 4
  swOut := Arr.zero 4
  swVideo := 0
  swMacro := 0
  swRemote := 0
  style := 0
  macaddress := Arr.zero 6
  bindIP := Arr.zero 4
  bindIndex := 0
  status2 := 0

/-- Field layout of the struct at packet/artpollreply.go:20-135 -/
instance : GoStruct ArtPollReply where
  layout := [.arr 8, .u16, .arr 4, .u16, .u16, .u8, .u8, .u16, .u8, .u8, .arr 2, .arr 18, .arr 64,
    .arr 64, .u16, .arr 4, .arr 4, .arr 4, .arr 4, .arr 4, .u8, .u8, .u8, .blank 3, .u8, .arr 6,
    .arr 4, .u8, .u8, .blank 26]
  toVals p := (p.id, p.opCode, p.ipAddress, p.port, p.versionInfo, p.netSwitch, p.subSwitch, p.oem,
    p.ubeaVersion, p.status1, p.estaManufacturer, p.shortName, p.longName, p.nodeReport, p.numPorts,
    p.portTypes, p.goodInput, p.goodOutput, p.swIn, p.swOut, p.swVideo, p.swMacro, p.swRemote, (),
    p.style, p.macaddress, p.bindIP, p.bindIndex, p.status2, (), ())
  ofVals := fun (id, opCode, ipAddress, port, versionInfo, netSwitch, subSwitch, oem, ubeaVersion,
    status1, estaManufacturer, shortName, longName, nodeReport, numPorts, portTypes, goodInput,
    goodOutput, swIn, swOut, swVideo, swMacro, swRemote, _, style, macaddress, bindIP, bindIndex,
    status2, _, _) =>
    { id, opCode, ipAddress, port, versionInfo, netSwitch, subSwitch, oem, ubeaVersion, status1,
      estaManufacturer, shortName, longName, nodeReport, numPorts, portTypes, goodInput, goodOutput,
      swIn, swOut, swVideo, swMacro, swRemote, style, macaddress, bindIP, bindIndex, status2 }

/-- packet/artpollreply.go:158-182 -/
def validate (p : ArtPollReply) : ArtPollReply × Option Err :=
  let p := { p with opCode := swapUint16 p.opCode }
  if p.opCode ≠ OpCode.opPollReply then (p, some .invalidOpCode)
  else
    let p := { p with port := swapUint16 p.port }
    let style (p : ArtPollReply) : ArtPollReply × Option Err :=
      if !StyleCode.validStyle p.style then (p, some .invalidStyleCode) else (p, none)
    if p.port ≠ artNetPort then
      let p := { p with port := swapUint16 p.port }
      if p.port ≠ artNetPort then (p, some (.invalidPort p.port))
      else style p
    else style p

/-- packet/artpollreply.go:185-191 -/
def finish (p : ArtPollReply) : ArtPollReply :=
  let p := { p with id := artNet }
  let p := { p with opCode := swapUint16 OpCode.opPollReply }
  { p with port := swapUint16 p.port }

instance : ArtNetPacket ArtPollReply where
  validate := validate
  finish := finish
  getOpCode p := p.opCode

/-- packet/artpollreply.go:148-150 -/
def marshalBinary (p : ArtPollReply) : ArtPollReply × Bytes × Option Err := marshalPacket p

/-- packet/artpollreply.go:153-155 -/
def unmarshalBinary (p : ArtPollReply) (b : Bytes) : ArtPollReply × Option Err := unmarshalPacket p b

end ArtPollReply

/-! ### packet/artdiagdata.go -/

/-- packet/artdiagdata.go:25-43 -/
structure ArtDiagData where
  hdr : Header
  priority : UInt8
  length : UInt16
  data : Arr 512
  deriving DecidableEq, Repr

namespace ArtDiagData

/-- packet/artdiagdata.go:46-48 (`&ArtDiagDataPacket{}`) -/
def new : ArtDiagData :=
  ⟨Header.zero, 0, 0, Arr.zero 512⟩

/-- Field layout of the struct at packet/artdiagdata.go:25-43 -/
instance : GoStruct ArtDiagData where
  layout := [.arr 8, .u16, .arr 2, .blank 1, .u8, .blank 2, .u16, .arr 512]
  toVals p := (p.hdr.id, p.hdr.opCode, p.hdr.version, (), p.priority, (), p.length, p.data, ())
  ofVals := fun (id, opCode, version, _, priority, _, length, data, _) =>
    ⟨⟨id, opCode, version⟩, priority, length, data⟩

/-- packet/artdiagdata.go:61-69 -/
def validate (p : ArtDiagData) : ArtDiagData × Option Err :=
  match p.hdr.validate with
  | (h, some e) => ({ p with hdr := h }, some e)
  | (h, none) =>
    let p := { p with hdr := h }
    if p.hdr.opCode ≠ OpCode.opDiagData then (p, some .invalidOpCode)
    else (p, none)

/-- packet/artdiagdata.go:72-74 -/
def finish (p : ArtDiagData) : ArtDiagData :=
  { p with hdr := p.hdr.finish }

instance : ArtNetPacket ArtDiagData where
  validate := validate
  finish := finish
  getOpCode p := p.hdr.getOpCode

/-- packet/artdiagdata.go:51-53 -/
def marshalBinary (p : ArtDiagData) : ArtDiagData × Bytes × Option Err := marshalPacket p

/-- packet/artdiagdata.go:56-58 -/
def unmarshalBinary (p : ArtDiagData) (b : Bytes) : ArtDiagData × Option Err := unmarshalPacket p b

end ArtDiagData

/-! ### packet/artcommand.go -/

/-- packet/artcommand.go:41-53 -/
structure ArtCommand where
  hdr : Header
  estaManufacturer : Arr 2
  length : UInt16
  data : Arr 512
  deriving DecidableEq, Repr

namespace ArtCommand

/-- packet/artcommand.go:56-58 (`&ArtCommandPacket{}`) -/
def new : ArtCommand :=
  ⟨Header.zero, Arr.zero 2, 0, Arr.zero 512⟩

/-- Field layout of the struct at packet/artcommand.go:41-53 -/
instance : GoStruct ArtCommand where
  layout := [.arr 8, .u16, .arr 2, .arr 2, .u16, .arr 512]
  toVals p := (p.hdr.id, p.hdr.opCode, p.hdr.version, p.estaManufacturer, p.length, p.data, ())
  ofVals := fun (id, opCode, version, estaManufacturer, length, data, _) =>
    ⟨⟨id, opCode, version⟩, estaManufacturer, length, data⟩

/-- packet/artcommand.go:71-82 -/
def validate (p : ArtCommand) : ArtCommand × Option Err :=
  match p.hdr.validate with
  | (h, some e) => ({ p with hdr := h }, some e)
  | (h, none) =>
    let p := { p with hdr := h }
    if p.hdr.opCode ≠ OpCode.opCommand then (p, some .invalidOpCode)
    else if p.estaManufacturer ≠ ⟨[0xff, 0xff], rfl⟩ then (p, some .invalidPacket)
    else (p, none)

/-- packet/artcommand.go:85-88 -/
def finish (p : ArtCommand) : ArtCommand :=
  let p := { p with hdr := p.hdr.finish }
  { p with estaManufacturer := ⟨[0xff, 0xff], rfl⟩ }

instance : ArtNetPacket ArtCommand where
  validate := validate
  finish := finish
  getOpCode p := p.hdr.getOpCode

/-- packet/artcommand.go:61-63 -/
def marshalBinary (p : ArtCommand) : ArtCommand × Bytes × Option Err := marshalPacket p

/-- packet/artcommand.go:66-68 -/
def unmarshalBinary (p : ArtCommand) (b : Bytes) : ArtCommand × Option Err := unmarshalPacket p b

end ArtCommand

/-! ### packet/artdmx.go -/

/-- packet/artdmx.go:38-66 -/
structure ArtDMX where
  hdr : Header
  sequence : UInt8
  physical : UInt8
  subUni : UInt8
  net : UInt8
  length : UInt16
  data : Arr 512
  deriving DecidableEq, Repr

namespace ArtDMX

/-- packet/artdmx.go:69-71 (`&ArtDMXPacket{}`) -/
def new : ArtDMX :=
  ⟨Header.zero, 0, 0, 0, 0, 0, Arr.zero 512⟩

/-- Field layout of the struct at packet/artdmx.go:38-66 -/
instance : GoStruct ArtDMX where
  layout := [.arr 8, .u16, .arr 2, .u8, .u8, .u8, .u8, .u16, .arr 512]
  toVals p := (p.hdr.id, p.hdr.opCode, p.hdr.version, p.sequence, p.physical, p.subUni, p.net,
    p.length, p.data, ())
  ofVals := fun (id, opCode, version, sequence, physical, subUni, net, length, data, _) =>
    ⟨⟨id, opCode, version⟩, sequence, physical, subUni, net, length, data⟩

/-- packet/artdmx.go:107-115 -/
def validate (p : ArtDMX) : ArtDMX × Option Err :=
  match p.hdr.validate with
  | (h, some e) => ({ p with hdr := h }, some e)
  | (h, none) =>
    let p := { p with hdr := h }
    if p.hdr.opCode ≠ OpCode.opDMX then (p, some .invalidOpCode)
    else (p, none)

/-- packet/artdmx.go:118-122 -/
def finish (p : ArtDMX) : ArtDMX :=
  let p := { p with length := 512 }
  let p := { p with hdr.opCode := OpCode.opDMX }
  { p with hdr := p.hdr.finish }

instance : ArtNetPacket ArtDMX where
  validate := validate
  finish := finish
  getOpCode p := p.hdr.getOpCode

/-- packet/artdmx.go:74-76 -/
def marshalBinary (p : ArtDMX) : ArtDMX × Bytes × Option Err := marshalPacket p

/-- packet/artdmx.go:79-104 -/
def unmarshalBinary (p : ArtDMX) (b : Bytes) : Go (ArtDMX × Option Err) :=
  if b.length < 18 then .ok (p, some .invalidPacket)
  else do
    let hb ← slice b 0 12
    let (h, err) ← p.hdr.unmarshal hb
    let p := { p with hdr := h }
    match err with
    | some e => pure (p, some e)
    | none =>
      let p := { p with sequence := ← idx b 12 }
      let p := { p with physical := ← idx b 13 }
      let p := { p with subUni := ← idx b 14 }
      let p := { p with net := ← idx b 15 }
      let b16 ← idx b 16
      let b17 ← idx b 17
      let p := { p with length := b16.toUInt16 * 256 + b17.toUInt16 }
      let l := p.length.toNat
      if b.length < l + 18 ∨ l < 2 ∨ l > 512 ∨ l % 2 ≠ 0 then pure (p, some .invalidPacket)
      else do
        let src ← slice b 18 (18 + l)
        let d ← p.data.copyPrefix l src
        pure ({ p with data := d }, none)

end ArtDMX

/-! ### packet/artnzs.go -/

/-- packet/artnzs.go:25-51 -/
structure ArtNzs where
  hdr : Header
  sequence : UInt8
  startCode : UInt8
  subUni : UInt8
  net : UInt8
  length : UInt16
  data : Arr 512
  deriving DecidableEq, Repr

namespace ArtNzs

/-- packet/artnzs.go:54-56 (`&ArtNzsPacket{}`) -/
def new : ArtNzs :=
  ⟨Header.zero, 0, 0, 0, 0, 0, Arr.zero 512⟩

/-- Field layout of the struct at packet/artnzs.go:25-51 -/
instance : GoStruct ArtNzs where
  layout := [.arr 8, .u16, .arr 2, .u8, .u8, .u8, .u8, .u16, .arr 512]
  toVals p := (p.hdr.id, p.hdr.opCode, p.hdr.version, p.sequence, p.startCode, p.subUni, p.net,
    p.length, p.data, ())
  ofVals := fun (id, opCode, version, sequence, startCode, subUni, net, length, data, _) =>
    ⟨⟨id, opCode, version⟩, sequence, startCode, subUni, net, length, data⟩

/-- packet/artnzs.go:69-77 -/
def validate (p : ArtNzs) : ArtNzs × Option Err :=
  match p.hdr.validate with
  | (h, some e) => ({ p with hdr := h }, some e)
  | (h, none) =>
    let p := { p with hdr := h }
    if p.hdr.opCode ≠ OpCode.opNzs then (p, some .invalidOpCode)
    else (p, none)

/-- packet/artnzs.go:80-82 -/
def finish (p : ArtNzs) : ArtNzs :=
  { p with hdr := p.hdr.finish }

instance : ArtNetPacket ArtNzs where
  validate := validate
  finish := finish
  getOpCode p := p.hdr.getOpCode

/-- packet/artnzs.go:59-61 -/
def marshalBinary (p : ArtNzs) : ArtNzs × Bytes × Option Err := marshalPacket p

/-- packet/artnzs.go:64-66 -/
def unmarshalBinary (p : ArtNzs) (b : Bytes) : ArtNzs × Option Err := unmarshalPacket p b

end ArtNzs

/-! ### packet/artsync.go -/

/-- packet/artsync.go:28-34 -/
structure ArtSync where
  hdr : Header
  deriving DecidableEq, Repr

namespace ArtSync

/-- packet/artsync.go:37-39 (`&ArtSyncPacket{}`) -/
def new : ArtSync :=
  ⟨Header.zero⟩

/-- Field layout of the struct at packet/artsync.go:28-34 -/
instance : GoStruct ArtSync where
  layout := [.arr 8, .u16, .arr 2, .blank 2]
  toVals p := (p.hdr.id, p.hdr.opCode, p.hdr.version, (), ())
  ofVals := fun (id, opCode, version, _, _) =>
    ⟨⟨id, opCode, version⟩⟩

/-- packet/artsync.go:52-60 -/
def validate (p : ArtSync) : ArtSync × Option Err :=
  match p.hdr.validate with
  | (h, some e) => ({ p with hdr := h }, some e)
  | (h, none) =>
    let p := { p with hdr := h }
    if p.hdr.opCode ≠ OpCode.opSync then (p, some .invalidOpCode)
    else (p, none)

/-- packet/artsync.go:63-65 -/
def finish (p : ArtSync) : ArtSync :=
  { p with hdr := p.hdr.finish }

instance : ArtNetPacket ArtSync where
  validate := validate
  finish := finish
  getOpCode p := p.hdr.getOpCode

/-- packet/artsync.go:42-44 -/
def marshalBinary (p : ArtSync) : ArtSync × Bytes × Option Err := marshalPacket p

/-- packet/artsync.go:47-49 -/
def unmarshalBinary (p : ArtSync) (b : Bytes) : ArtSync × Option Err := unmarshalPacket p b

end ArtSync

/-! ### packet/artaddress.go -/

/-- packet/artaddress.go:28-72 -/
structure ArtAddress where
  hdr : Header
  netSwitch : UInt8
  bindIndex : UInt8
  shortName : Arr 18
  longName : Arr 64
  swIn : Arr 4
  swOut : Arr 4
  subSwitch : UInt8
  swVideo : UInt8
  command : UInt8
  deriving DecidableEq, Repr

namespace ArtAddress

/-- packet/artaddress.go:75-77 (`&ArtAddressPacket{}`) -/
def new : ArtAddress :=
  ⟨Header.zero, 0, 0, Arr.zero 18, Arr.zero 64, Arr.zero 4, Arr.zero 4, 0, 0, 0⟩

/-- Field layout of the struct at packet/artaddress.go:28-72 -/
instance : GoStruct ArtAddress where
  layout := [.arr 8, .u16, .arr 2, .u8, .u8, .arr 18, .arr 64, .arr 4, .arr 4, .u8, .u8, .u8]
  toVals p := (p.hdr.id, p.hdr.opCode, p.hdr.version, p.netSwitch, p.bindIndex, p.shortName,
    p.longName, p.swIn, p.swOut, p.subSwitch, p.swVideo, p.command, ())
  ofVals := fun (id, opCode, version, netSwitch, bindIndex, shortName, longName, swIn, swOut, subSwitch,
    swVideo, command, _) =>
    ⟨⟨id, opCode, version⟩, netSwitch, bindIndex, shortName, longName, swIn, swOut, subSwitch, swVideo, command⟩

/-- packet/artaddress.go:90-98 -/
def validate (p : ArtAddress) : ArtAddress × Option Err :=
  match p.hdr.validate with
  | (h, some e) => ({ p with hdr := h }, some e)
  | (h, none) =>
    let p := { p with hdr := h }
    if p.hdr.opCode ≠ OpCode.opAddress then (p, some .invalidOpCode)
    else (p, none)

/-- packet/artaddress.go:101-103 -/
def finish (p : ArtAddress) : ArtAddress :=
  { p with hdr := p.hdr.finish }

instance : ArtNetPacket ArtAddress where
  validate := validate
  finish := finish
  getOpCode p := p.hdr.getOpCode

/-- packet/artaddress.go:80-82 -/
def marshalBinary (p : ArtAddress) : ArtAddress × Bytes × Option Err := marshalPacket p

/-- packet/artaddress.go:85-87 -/
def unmarshalBinary (p : ArtAddress) (b : Bytes) : ArtAddress × Option Err := unmarshalPacket p b

end ArtAddress

/-! ### packet/arttimecode.go -/

/-- packet/arttimecode.go:27-48 -/
structure ArtTimeCode where
  hdr : Header
  frames : UInt8
  seconds : UInt8
  minutes : UInt8
  hours : UInt8
  type : UInt8
  deriving DecidableEq, Repr

namespace ArtTimeCode

/-- packet/arttimecode.go:51-53 (`&ArtTimeCodePacket{}`) -/
def new : ArtTimeCode :=
  ⟨Header.zero, 0, 0, 0, 0, 0⟩

/-- Field layout of the struct at packet/arttimecode.go:27-48 -/
instance : GoStruct ArtTimeCode where
  layout := [.arr 8, .u16, .arr 2, .blank 2, .u8, .u8, .u8, .u8, .u8]
  toVals p := (p.hdr.id, p.hdr.opCode, p.hdr.version, (), p.frames, p.seconds, p.minutes, p.hours,
    p.type, ())
  ofVals := fun (id, opCode, version, _, frames, seconds, minutes, hours, type, _) =>
    ⟨⟨id, opCode, version⟩, frames, seconds, minutes, hours, type⟩

/-- packet/arttimecode.go:66-74 -/
def validate (p : ArtTimeCode) : ArtTimeCode × Option Err :=
  match p.hdr.validate with
  | (h, some e) => ({ p with hdr := h }, some e)
  | (h, none) =>
    let p := { p with hdr := h }
    if p.hdr.opCode ≠ OpCode.opTimeCode then (p, some .invalidOpCode)
    else (p, none)

/-- packet/arttimecode.go:77-79 -/
def finish (p : ArtTimeCode) : ArtTimeCode :=
  { p with hdr := p.hdr.finish }

instance : ArtNetPacket ArtTimeCode where
  validate := validate
  finish := finish
  getOpCode p := p.hdr.getOpCode

/-- packet/arttimecode.go:56-58 -/
def marshalBinary (p : ArtTimeCode) : ArtTimeCode × Bytes × Option Err := marshalPacket p

/-- packet/arttimecode.go:61-63 -/
def unmarshalBinary (p : ArtTimeCode) (b : Bytes) : ArtTimeCode × Option Err := unmarshalPacket p b

end ArtTimeCode

/-! ### packet/arttrigger.go -/

/-- packet/arttrigger.go:51-69 -/
structure ArtTrigger where
  hdr : Header
  oem : UInt16
  key : UInt8
  subKey : UInt8
  data : Arr 512
  deriving DecidableEq, Repr

namespace ArtTrigger

/-- packet/arttrigger.go:72-74 (`&ArtTriggerPacket{}`) -/
def new : ArtTrigger :=
  ⟨Header.zero, 0, 0, 0, Arr.zero 512⟩

/-- Field layout of the struct at packet/arttrigger.go:51-69 -/
instance : GoStruct ArtTrigger where
  layout := [.arr 8, .u16, .arr 2, .blank 2, .u16, .u8, .u8, .arr 512]
  toVals p := (p.hdr.id, p.hdr.opCode, p.hdr.version, (), p.oem, p.key, p.subKey, p.data, ())
  ofVals := fun (id, opCode, version, _, oem, key, subKey, data, _) =>
    ⟨⟨id, opCode, version⟩, oem, key, subKey, data⟩

/-- packet/arttrigger.go:87-95 -/
def validate (p : ArtTrigger) : ArtTrigger × Option Err :=
  match p.hdr.validate with
  | (h, some e) => ({ p with hdr := h }, some e)
  | (h, none) =>
    let p := { p with hdr := h }
    if p.hdr.opCode ≠ OpCode.opTrigger then (p, some .invalidOpCode)
    else (p, none)

/-- packet/arttrigger.go:98-100 -/
def finish (p : ArtTrigger) : ArtTrigger :=
  { p with hdr := p.hdr.finish }

instance : ArtNetPacket ArtTrigger where
  validate := validate
  finish := finish
  getOpCode p := p.hdr.getOpCode

/-- packet/arttrigger.go:77-79 -/
def marshalBinary (p : ArtTrigger) : ArtTrigger × Bytes × Option Err := marshalPacket p

/-- packet/arttrigger.go:82-84 -/
def unmarshalBinary (p : ArtTrigger) (b : Bytes) : ArtTrigger × Option Err := unmarshalPacket p b

end ArtTrigger

/-! ### packet/artipprog.go -/

/-- packet/artipprog.go:26-51 -/
structure ArtIPProg where
  hdr : Header
  command : UInt8
  progIP : Arr 4
  progSubNet : Arr 4
  progPort : Arr 2
  deriving DecidableEq, Repr

namespace ArtIPProg

/-- packet/artipprog.go:54-56 (`&ArtIPProgPacket{}`) -/
def new : ArtIPProg :=
  ⟨Header.zero, 0, Arr.zero 4, Arr.zero 4, Arr.zero 2⟩

/-- Field layout of the struct at packet/artipprog.go:26-51 -/
instance : GoStruct ArtIPProg where
  layout := [.arr 8, .u16, .arr 2, .blank 2, .u8, .blank 1, .arr 4, .arr 4, .arr 2, .blank 8]
  toVals p := (p.hdr.id, p.hdr.opCode, p.hdr.version, (), p.command, (), p.progIP, p.progSubNet,
    p.progPort, (), ())
  ofVals := fun (id, opCode, version, _, command, _, progIP, progSubNet, progPort, _, _) =>
    ⟨⟨id, opCode, version⟩, command, progIP, progSubNet, progPort⟩

/-- packet/artipprog.go:69-77 -/
def validate (p : ArtIPProg) : ArtIPProg × Option Err :=
  match p.hdr.validate with
  | (h, some e) => ({ p with hdr := h }, some e)
  | (h, none) =>
    let p := { p with hdr := h }
    if p.hdr.opCode ≠ OpCode.opIPProg then (p, some .invalidOpCode)
    else (p, none)

/-- packet/artipprog.go:80-82 -/
def finish (p : ArtIPProg) : ArtIPProg :=
  { p with hdr := p.hdr.finish }

instance : ArtNetPacket ArtIPProg where
  validate := validate
  finish := finish
  getOpCode p := p.hdr.getOpCode

/-- packet/artipprog.go:59-61 -/
def marshalBinary (p : ArtIPProg) : ArtIPProg × Bytes × Option Err := marshalPacket p

/-- packet/artipprog.go:64-66 -/
def unmarshalBinary (p : ArtIPProg) (b : Bytes) : ArtIPProg × Option Err := unmarshalPacket p b

end ArtIPProg

/-! ### packet/artipprogreply.go -/

/-- packet/artipprogreply.go:26-47 -/
structure ArtIPProgReply where
  hdr : Header
  progIP : Arr 4
  progSubNet : Arr 4
  progPort : Arr 2
  status : UInt8
  deriving DecidableEq, Repr

namespace ArtIPProgReply

/-- packet/artipprogreply.go:50-52 (`&ArtIPProgReplyPacket{}`) -/
def new : ArtIPProgReply :=
  ⟨Header.zero, Arr.zero 4, Arr.zero 4, Arr.zero 2, 0⟩

/-- Field layout of the struct at packet/artipprogreply.go:26-47 -/
instance : GoStruct ArtIPProgReply where
  layout := [.arr 8, .u16, .arr 2, .blank 4, .arr 4, .arr 4, .arr 2, .u8, .blank 7]
  toVals p := (p.hdr.id, p.hdr.opCode, p.hdr.version, (), p.progIP, p.progSubNet, p.progPort, p.status,
    (), ())
  ofVals := fun (id, opCode, version, _, progIP, progSubNet, progPort, status, _, _) =>
    ⟨⟨id, opCode, version⟩, progIP, progSubNet, progPort, status⟩

/-- packet/artipprogreply.go:65-73 -/
def validate (p : ArtIPProgReply) : ArtIPProgReply × Option Err :=
  match p.hdr.validate with
  | (h, some e) => ({ p with hdr := h }, some e)
  | (h, none) =>
    let p := { p with hdr := h }
    if p.hdr.opCode ≠ OpCode.opIPProgReply then (p, some .invalidOpCode)
    else (p, none)

/-- packet/artipprogreply.go:76-78 -/
def finish (p : ArtIPProgReply) : ArtIPProgReply :=
  { p with hdr := p.hdr.finish }

instance : ArtNetPacket ArtIPProgReply where
  validate := validate
  finish := finish
  getOpCode p := p.hdr.getOpCode

/-- packet/artipprogreply.go:55-57 -/
def marshalBinary (p : ArtIPProgReply) : ArtIPProgReply × Bytes × Option Err := marshalPacket p

/-- packet/artipprogreply.go:60-62 -/
def unmarshalBinary (p : ArtIPProgReply) (b : Bytes) : ArtIPProgReply × Option Err := unmarshalPacket p b

end ArtIPProgReply

/-! ### packet/packet.go -/

/-- A value of the interface `ArtNetPacket` (packet/header.go:25-31): one of the twelve pointer types
that implement it. -/
inductive AnyPacket
  | poll (p : ArtPoll)
  | pollReply (p : ArtPollReply)
  | diagData (p : ArtDiagData)
  | command (p : ArtCommand)
  | dmx (p : ArtDMX)
  | nzs (p : ArtNzs)
  | sync (p : ArtSync)
  | address (p : ArtAddress)
  | timeCode (p : ArtTimeCode)
  | trigger (p : ArtTrigger)
  | ipProg (p : ArtIPProg)
  | ipProgReply (p : ArtIPProgReply)
  deriving DecidableEq, Repr

namespace AnyPacket

/-- `p.GetOpCode()` through the interface: packet/header.go:54-56, packet/artpollreply.go:143-145 -/
def getOpCode : AnyPacket → OpCode
  | .poll p => ArtNetPacket.getOpCode p
  | .pollReply p => ArtNetPacket.getOpCode p
  | .diagData p => ArtNetPacket.getOpCode p
  | .command p => ArtNetPacket.getOpCode p
  | .dmx p => ArtNetPacket.getOpCode p
  | .nzs p => ArtNetPacket.getOpCode p
  | .sync p => ArtNetPacket.getOpCode p
  | .address p => ArtNetPacket.getOpCode p
  | .timeCode p => ArtNetPacket.getOpCode p
  | .trigger p => ArtNetPacket.getOpCode p
  | .ipProg p => ArtNetPacket.getOpCode p
  | .ipProgReply p => ArtNetPacket.getOpCode p

/-- `p.MarshalBinary()` through the interface. -/
def marshalBinary : AnyPacket → AnyPacket × Bytes × Option Err
  | .poll p => let (p, b, e) := p.marshalBinary; (.poll p, b, e)
  | .pollReply p => let (p, b, e) := p.marshalBinary; (.pollReply p, b, e)
  | .diagData p => let (p, b, e) := p.marshalBinary; (.diagData p, b, e)
  | .command p => let (p, b, e) := p.marshalBinary; (.command p, b, e)
  | .dmx p => let (p, b, e) := p.marshalBinary; (.dmx p, b, e)
  | .nzs p => let (p, b, e) := p.marshalBinary; (.nzs p, b, e)
  | .sync p => let (p, b, e) := p.marshalBinary; (.sync p, b, e)
  | .address p => let (p, b, e) := p.marshalBinary; (.address p, b, e)
  | .timeCode p => let (p, b, e) := p.marshalBinary; (.timeCode p, b, e)
  | .trigger p => let (p, b, e) := p.marshalBinary; (.trigger p, b, e)
  | .ipProg p => let (p, b, e) := p.marshalBinary; (.ipProg p, b, e)
  | .ipProgReply p => let (p, b, e) := p.marshalBinary; (.ipProgReply p, b, e)

/-- `p.UnmarshalBinary(b)` through the interface. -/
def unmarshalBinary : AnyPacket → Bytes → Go (AnyPacket × Option Err)
  | .poll p, b => let (p, e) := p.unmarshalBinary b; .ok (.poll p, e)
  | .pollReply p, b => let (p, e) := p.unmarshalBinary b; .ok (.pollReply p, e)
  | .diagData p, b => let (p, e) := p.unmarshalBinary b; .ok (.diagData p, e)
  | .command p, b => let (p, e) := p.unmarshalBinary b; .ok (.command p, e)
  | .dmx p, b => do let (p, e) ← p.unmarshalBinary b; pure (.dmx p, e)
  | .nzs p, b => let (p, e) := p.unmarshalBinary b; .ok (.nzs p, e)
  | .sync p, b => let (p, e) := p.unmarshalBinary b; .ok (.sync p, e)
  | .address p, b => let (p, e) := p.unmarshalBinary b; .ok (.address p, e)
  | .timeCode p, b => let (p, e) := p.unmarshalBinary b; .ok (.timeCode p, e)
  | .trigger p, b => let (p, e) := p.unmarshalBinary b; .ok (.trigger p, e)
  | .ipProg p, b => let (p, e) := p.unmarshalBinary b; .ok (.ipProg p, e)
  | .ipProgReply p, b => let (p, e) := p.unmarshalBinary b; .ok (.ipProgReply p, e)

end AnyPacket

/-- packet/packet.go:48-69: the opcodes of the not-implemented case, in source order. -/
def notImplemented : List OpCode := [
  OpCode.opDirectory,
  OpCode.opDirectoryReply,
  OpCode.opFileFnMaster,
  OpCode.opFileFnReply,
  OpCode.opFileTnMaster,
  OpCode.opFirmwareMaster,
  OpCode.opFirmwareReply,
  OpCode.opMacMaster,
  OpCode.opMacSlave,
  OpCode.opMedia,
  OpCode.opMediaContrlReply,
  OpCode.opMediaControl,
  OpCode.opMediaPatch,
  OpCode.opRdm,
  OpCode.opRdmSub,
  OpCode.opTimeSync,
  OpCode.opTodControl,
  OpCode.opTodData,
  OpCode.opVideoData,
  OpCode.opVideoPalette,
  OpCode.opVideoSetup,
  OpCode.opTodRequest]

/-- packet/packet.go:17-73: the `switch h.OpCode`, giving the fresh packet to decode into or the
error returned. -/
def dispatch (o : OpCode) : Except Err AnyPacket :=
  if o = OpCode.opPoll then .ok (.poll ArtPoll.new) else
  if o = OpCode.opPollReply then .ok (.pollReply ArtPollReply.new) else
  if o = OpCode.opDiagData then .ok (.diagData ArtDiagData.new) else
  if o = OpCode.opCommand then .ok (.command ArtCommand.new) else
  if o = OpCode.opDMX then .ok (.dmx ArtDMX.new) else
  if o = OpCode.opNzs then .ok (.nzs ArtNzs.new) else
  if o = OpCode.opSync then .ok (.sync ArtSync.new) else
  if o = OpCode.opAddress then .ok (.address ArtAddress.new) else
  if o = OpCode.opInput then .error (.unimplemented o) else
  if o = OpCode.opTimeCode then .ok (.timeCode ArtTimeCode.new) else
  if o = OpCode.opTrigger then .ok (.trigger ArtTrigger.new) else
  if o = OpCode.opIPProg then .ok (.ipProg ArtIPProg.new) else
  if o = OpCode.opIPProgReply then .ok (.ipProgReply ArtIPProgReply.new) else
  if o ∈ notImplemented then .error (.notImplementedOpCode o)
  else .error (.invalidOpCodeDispatch o)

/-- packet/packet.go:10-77. The first component is the returned interface value (`none` = nil). -/
def unmarshal (b : Bytes) : Go (Option AnyPacket × Option Err) := do
  let (h, err) ← Header.zero.unmarshal b
  match err with
  | some e => pure (none, some e)
  | none =>
    match dispatch h.opCode with
    | .error e => pure (none, some e)
    | .ok p => do
      let (p, err) ← p.unmarshalBinary b
      pure (some p, err)

end Packet
end Verif
