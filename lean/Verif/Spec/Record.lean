import Verif.Spec.Config
/-
What a controller should know about a node, field by field: the record of a reply, and the record of the
node that announced itself with a given configuration. Nothing here calls the functions of config.go.
-/
namespace Verif.Spec
open Packet Code Artnet

/-- The content of a fixed field of `n` bytes: cut off, or filled up with zeros. -/
def padTo (n : Nat) (b : Bytes) : Bytes := b.take n ++ List.replicate (n - b.length) 0

/-- The text in a fixed field: the bytes before the first NUL, each as the character with that code. -/
def textIn (b : Bytes) : Bytes := (b.takeWhile (· ≠ 0)).flatMap latin1Utf8

/-- The four bytes of an IPv4 address in either of its forms; zeros for anything else. -/
def fourBytes (ip : Bytes) : Bytes :=
  if ip.length = 4 then ip
  else if ip.length = 16 ∧ ip.take 12 = [0, 0, 0, 0, 0, 0, 0, 0, 0, 0, 0xff, 0xff] then ip.drop 12
  else [0, 0, 0, 0]

/-- The protocol number of a port type, with 0 (DMX512) for the numbers that have no name. -/
def protocolNumber (t : UInt8) : UInt8 := if t.toNat % 32 ≤ 5 then UInt8.ofNat (t.toNat % 32) else 0

/-- The type byte announced for the ports with index `i`: bit 7 for an output, bit 6 for an input, and the
protocol in the low bits. -/
def announcedType (c : NodeConfig) (i : Nat) : UInt8 :=
  match c.outputPorts[i]?, c.inputPorts[i]? with
  | some o, some _ => 128 + 64 + protocolNumber o.type
  | some o, none => 128 + protocolNumber o.type
  | none, some q => 64 + protocolNumber q.type
  | none, none => 0

/-- What reply `p` says about its sender. -/
def recordOf (p : ArtPollReply) : NodeConfig where
  oem := p.oem
  version := p.versionInfo
  biosVersion := p.ubeaVersion
  manufacturer := textIn p.estaManufacturer.val
  type := p.style
  name := textIn p.shortName.val
  description := textIn p.longName.val
  report := p.nodeReport.val
  ethernet := p.macaddress.val
  ip := p.ipAddress.val
  bindIP := p.bindIP.val
  bindIndex := p.bindIndex
  port := p.port
  status1 := p.status1
  status2 := p.status2
  baseAddress := ⟨p.netSwitch, p.subSwitch⟩
  inputPorts := (advertised p 6).map fun i =>
    ⟨⟨p.netSwitch, p.subSwitch ||| p.swIn.get i⟩, p.portTypes.get i, p.goodInput.get i⟩
  outputPorts := (advertised p 7).map fun i =>
    ⟨⟨p.netSwitch, p.subSwitch ||| p.swOut.get i⟩, p.portTypes.get i, p.goodOutput.get i⟩

/-- What a controller comes to know about a node with configuration `c`. -/
def announcedRecord (c : NodeConfig) : NodeConfig where
  oem := c.oem
  version := c.version
  biosVersion := c.biosVersion
  manufacturer := textIn (padTo 2 c.manufacturer)
  type := c.type
  name := textIn (padTo 18 c.name)
  description := textIn (padTo 64 c.description)
  report := padTo 64 c.report
  ethernet := padTo 6 c.ethernet
  ip := fourBytes c.ip
  bindIP := fourBytes c.bindIP
  bindIndex := c.bindIndex
  port := 6454
  status1 := c.status1
  status2 := c.status2
  baseAddress := c.baseAddress
  inputPorts := (List.range c.inputPorts.length).map fun i => ⟨c.baseAddress, announcedType c i, 0⟩
  outputPorts := (List.range c.outputPorts.length).map fun i => ⟨c.baseAddress, announcedType c i, 0⟩

end Verif.Spec
