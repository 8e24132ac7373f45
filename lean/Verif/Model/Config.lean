import Verif.Model.Packet
/-
Model of config.go: node configurations, announcement and discovery.

A Go `string` is modelled by its bytes, `net.IP`, `net.HardwareAddr` and `[]NodeReportCode` by byte
lists (nil and empty are not distinguished; no code of the package does).
-/
namespace Verif.Artnet
open Packet Code

/-- `l[i]` on a slice of any element type: panics when `i ≥ len(l)`. -/
def idxL {α : Type} (l : List α) (i : Nat) : Go α :=
  match l[i]? with
  | some x => .ok x
  | none => .error .indexOutOfRange

/-- config.go:12-15 -/
structure Address where
  net : UInt8
  subUni : UInt8
  deriving DecidableEq, Repr

/-- config.go:18-20. `%d` of a uint8 is its decimal representation. -/
def Address.str (a : Address) : String :=
  a.net.toNat.repr ++ ":" ++ (a.subUni >>> 4).toNat.repr ++ "." ++ (a.subUni &&& 0x0f).toNat.repr

/-- config.go:23-25. The `int` is at least 32 bits wide. -/
def Address.integer (a : Address) : Int :=
  ((a.net.toUInt16 <<< 8 ||| a.subUni.toUInt16).toNat : Int)

/-- config.go:28-32 -/
structure InputPort where
  address : Address
  type : PortType
  status : GoodInput
  deriving DecidableEq, Repr

/-- config.go:35-39 -/
structure OutputPort where
  address : Address
  type : PortType
  status : GoodOutput
  deriving DecidableEq, Repr

/-- config.go:42-64 -/
structure NodeConfig where
  oem : UInt16
  version : UInt16
  biosVersion : UInt8
  manufacturer : Bytes
  type : StyleCode
  name : Bytes
  description : Bytes
  ethernet : Bytes
  ip : Bytes
  bindIP : Bytes
  bindIndex : UInt8
  port : UInt16
  report : Bytes
  status1 : Status1
  status2 : Status2
  baseAddress : Address
  inputPorts : List InputPort
  outputPorts : List OutputPort
  deriving DecidableEq, Repr

/-- The zero value `NodeConfig{}` (config.go:42-64). -/
def NodeConfig.zero : NodeConfig where
  oem := 0
  version := 0
  biosVersion := 0
  manufacturer := []
  type := 0
  name := []
  description := []
  ethernet := []
  ip := []
  bindIP := []
  bindIndex := 0
  port := 0
  report := []
  status1 := 0
  status2 := 0
  baseAddress := ⟨0, 0⟩
  inputPorts := []
  outputPorts := []

/-- config.go:98-103 (`uint16(len)` truncates) -/
def NodeConfig.numberOfPorts (c : NodeConfig) : UInt16 :=
  if c.inputPorts.length > c.outputPorts.length then UInt16.ofNat c.inputPorts.length
  else UInt16.ofNat c.outputPorts.length

/-- config.go:110-118: the body of the loop, the value of `rsl[i]` (zero when neither branch runs). -/
def NodeConfig.portTypeAt (c : NodeConfig) (i : Nat) : Go PortType := do
  let tmp : PortType := 0
  let rsl : PortType := 0
  let (tmp, rsl) ← if c.inputPorts.length > i then do
      let tmp := PortType.withInput tmp true
      let q ← idxL c.inputPorts i
      pure (tmp, PortType.withType tmp (PortType.type q.type))
    else pure (tmp, rsl)
  if c.outputPorts.length > i then do
    let tmp := PortType.withOutput tmp true
    let q ← idxL c.outputPorts i
    pure (PortType.withType tmp (PortType.type q.type))
  else pure rsl

/-- config.go:107-121: the loop over `i < 4`, written out. -/
def NodeConfig.portTypes (c : NodeConfig) : Go (Arr 4) := do
  let a ← c.portTypeAt 0
  let b ← c.portTypeAt 1
  let d ← c.portTypeAt 2
  let e ← c.portTypeAt 3
  pure ⟨[a, b, d, e], rfl⟩

/-- The errors of config.go:130-152. The number in `tooManyOutputs` is the one the message prints,
which is the number of input ports (config.go:135). -/
inductive ConfigErr
  | tooManyInputs (n : Nat)
  | tooManyOutputs (n : Nat)
  | typeMismatch (inType : String) (i : Nat) (outType : String)
  deriving DecidableEq, Repr

/-- config.go:137-150: the loop from index `i` on. -/
def NodeConfig.validateFrom (c : NodeConfig) (i : Nat) : Go (Option ConfigErr) :=
  if i < 4 then
    if c.inputPorts.length ≤ i ∨ c.outputPorts.length ≤ i then c.validateFrom (i + 1)
    else do
      let a ← idxL c.inputPorts i
      let b ← idxL c.outputPorts i
      if PortType.type a.type ≠ PortType.type b.type then
        pure (some (.typeMismatch (PortType.type a.type) (i + 1) (PortType.type b.type)))
      else c.validateFrom (i + 1)
  else pure none
termination_by 4 - i

/-- config.go:130-152 -/
def NodeConfig.validate (c : NodeConfig) : Go (Option ConfigErr) :=
  if c.inputPorts.length > 4 then pure (some (.tooManyInputs c.inputPorts.length))
  else if c.outputPorts.length > 4 then pure (some (.tooManyOutputs c.inputPorts.length))
  else c.validateFrom 0

/-- config.go:68-94 -/
def artPollReplyFromConfig (c : NodeConfig) : Go ArtPollReply := do
  let pt ← c.portTypes
  let p := ArtPollReply.new
  let p := { p with
    opCode := OpCode.opPollReply
    port := artNetPort
    oem := c.oem
    versionInfo := c.version
    ubeaVersion := c.biosVersion
    style := c.type
    bindIndex := c.bindIndex
    status1 := c.status1
    status2 := c.status2
    netSwitch := c.baseAddress.net
    subSwitch := c.baseAddress.subUni
    numPorts := c.numberOfPorts
    portTypes := pt }
  pure { p with
    ipAddress := p.ipAddress.copyFrom (to4 c.ip)
    estaManufacturer := p.estaManufacturer.copyFrom c.manufacturer
    shortName := p.shortName.copyFrom c.name
    longName := p.longName.copyFrom c.description
    nodeReport := p.nodeReport.copyFrom c.report
    bindIP := p.bindIP.copyFrom (to4 c.bindIP)
    macaddress := p.macaddress.copyFrom c.ethernet }

/-- `string(c)` for a byte `c` (Go specification, conversion of an integer to a string): the UTF-8
encoding of the code point `c`. Used at config.go:211. -/
def runeString (c : UInt8) : Bytes :=
  if c < 0x80 then [c] else [(0xc0 : UInt8) ||| (c >>> 6), (0x80 : UInt8) ||| (c &&& 0x3f)]

/-- config.go:206-214 (the accumulator `str` is the second argument) -/
def decodeStringFrom : Bytes → Bytes → Bytes
  | [], str => str
  | c :: b, str => if c = 0 then str else decodeStringFrom b (str ++ runeString c)

/-- config.go:206-214 -/
def decodeString (b : Bytes) : Bytes := decodeStringFrom b []

/-- config.go:179-198: the body of the loop. The index is below 4, the length of the arrays. -/
def discoverPort (p : ArtPollReply) (c : NodeConfig) (i : Fin 4) : NodeConfig :=
  let c := if PortType.output (p.portTypes.get i) then
      { c with outputPorts := c.outputPorts ++ [{
          address := ⟨c.baseAddress.net, c.baseAddress.subUni ||| p.swOut.get i⟩
          type := p.portTypes.get i
          status := p.goodOutput.get i }] }
    else c
  if PortType.input (p.portTypes.get i) then
    { c with inputPorts := c.inputPorts ++ [{
        address := ⟨c.baseAddress.net, c.baseAddress.subUni ||| p.swIn.get i⟩
        type := p.portTypes.get i
        status := p.goodInput.get i }] }
  else c

/-- config.go:178-199: the loop from index `i` on. -/
def discoverFrom (p : ArtPollReply) (c : NodeConfig) (i : Nat) : NodeConfig :=
  if h : i < p.numPorts.toNat ∧ i < 4 then discoverFrom p (discoverPort p c ⟨i, h.2⟩) (i + 1) else c
termination_by 4 - i

/-- config.go:155-202. The argument is passed by value, so the slices `p.X[:]` belong to the result
alone and are modelled by their contents. -/
def configFromArtPollReply (p : ArtPollReply) : NodeConfig :=
  discoverFrom p {
    oem := p.oem
    version := p.versionInfo
    biosVersion := p.ubeaVersion
    manufacturer := decodeString p.estaManufacturer.val
    type := p.style
    name := decodeString p.shortName.val
    description := decodeString p.longName.val
    report := p.nodeReport.val
    ethernet := p.macaddress.val
    ip := p.ipAddress.val
    bindIP := p.bindIP.val
    bindIndex := p.bindIndex
    port := p.port
    status1 := p.status1
    status2 := p.status2
    baseAddress := ⟨p.netSwitch, p.subSwitch⟩
    inputPorts := []
    outputPorts := [] } 0

end Verif.Artnet
