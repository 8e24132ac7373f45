import Verif.Model.Controller
/-
Model of the constructors NewNode and NewController and of the functional options (options.go).

An option of the package is a constructor of an inductive type; options written by users (the types are
exported functions on the structs) are not modelled. Every option of the package returns nil, so the
discarded error results of SetOption do not matter. The logger is not modelled.
-/
namespace Verif.Artnet
open Packet Code

/-- controller.go:14-17 -/
def defaultBroadcastAddr : UDPAddr := ⟨[0x02, 0xff, 0xff, 0xff], artNetPort.toNat⟩

/-- A call-back: one of the two methods of Node that NewNode registers, one of the user's functions, or a nil function. -/
inductive Handler
  | poll
  | pollReply
  | user (id : Nat)
  | nil
  deriving DecidableEq, Repr

/-- node.go:18-45: the fields that NewNode sets. -/
structure NodeSetup where
  config : NodeConfig
  broadcastAddr : UDPAddr
  localAddr : UDPAddr
  listenAddr : UDPAddr
  shutdown : Bool
  callbacks : GoMap OpCode Handler
  deriving DecidableEq

/-- options.go:48-78: the options for Node. -/
inductive NodeOption
  | broadcastAddress (addr : UDPAddr)
  | listenAddress (addr : UDPAddr)
  | listenIP (ip : Bytes)

/-- options.go:52-54 applied to the closures of options.go:57-78 -/
def NodeSetup.setOption (n : NodeSetup) : NodeOption → NodeSetup
  | .broadcastAddress addr => { n with broadcastAddr := addr }
  | .listenAddress addr => { n with listenAddr := addr }
  | .listenIP ip => { n with listenAddr := ⟨ip, artNetPort.toNat⟩ }

/-- node.go:55-90 -/
def newNode (name : Bytes) (style : StyleCode) (ip : Bytes) (opts : List NodeOption) : NodeSetup :=
  let n : NodeSetup := {
    config := { NodeConfig.zero with name := name, type := style }
    listenAddr := ⟨[], artNetPort.toNat⟩
    broadcastAddr := defaultBroadcastAddr
    localAddr := ⟨[], 0⟩
    shutdown := true
    callbacks := [] }
  let n := opts.foldl NodeSetup.setOption n
  let n := { n with callbacks := [(OpCode.opPoll, .poll), (OpCode.opPollReply, .pollReply)] }
  let n := { n with config.ip := ip }
  { n with localAddr := ⟨ip, artNetPort.toNat⟩ }

/-- controller.go:82-101: the fields that NewController sets. -/
structure ControllerSetup where
  cNode : NodeSetup
  maxFPS : Int
  broadcastAddr : UDPAddr
  deriving DecidableEq

/-- options.go:9-46: the options for Controller. -/
inductive CtrlOption
  | maxFPS (fps : Int)
  | broadcastAddr (addr : UDPAddr)
  | listenAddress (addr : UDPAddr)
  | listenIP (ip : Bytes)

/-- options.go:13-15 applied to the closures of options.go:18-46 -/
def ControllerSetup.setOption (c : ControllerSetup) : CtrlOption → ControllerSetup
  | .maxFPS fps => { c with maxFPS := fps }
  | .broadcastAddr addr => { c with broadcastAddr := addr }
  | .listenAddress addr => { c with cNode := c.cNode.setOption (.listenAddress addr) }
  | .listenIP ip => { c with cNode := c.cNode.setOption (.listenIP ip) }

/-- controller.go:104-117 -/
def newController (name ip : Bytes) (opts : List CtrlOption) : ControllerSetup :=
  let c : ControllerSetup := {
    cNode := newNode name StyleCode.stController ip []
    maxFPS := 1000
    broadcastAddr := defaultBroadcastAddr }
  opts.foldl ControllerSetup.setOption c

end Verif.Artnet
