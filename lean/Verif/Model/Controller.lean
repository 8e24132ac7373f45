import Verif.Model.Config
/-
Model of the data path of controller.go: the node table, the routing maps, the DMX buffers.

Every operation below is one critical section of `Controller.nodeLock` (updateNode, gcNode,
SendDMXToAddress, one tick of dmxUpdateLoop), hence atomic with respect to the others. The channel
`cNode.sendCh` is represented by the list of payloads handed to it; its blocking is modelled in
Model/Conc.lean. Logging is not modelled. A `time.Time` is an `Int`: nanoseconds since the zero
`time.Time` (one clock; overflow is not modelled).
-/
namespace Verif.Artnet
open Packet Code

/-- A `*ControlledNode`. -/
abbrev Ref := Nat

/-- `time.Second` -/
def second : Int := 1000000000

/-- controller.go:33-37. The zero value of `LastUpdate` is 0. -/
structure DmxBuffer where
  data : Arr 512
  lastUpdate : Int
  stale : Bool
  deriving DecidableEq

/-- `&dmxBuffer{}` -/
def DmxBuffer.zero : DmxBuffer := ⟨Arr.zero 512, 0, false⟩

/-- controller.go:23-31. The buffers are reachable through the map only, so the map holds their
contents; nil pointers are never stored (an absent key reads as nil). -/
structure ControlledNode where
  lastSeen : Int
  node : NodeConfig
  udpAddress : UDPAddr
  sequence : UInt8
  dmxBuffer : GoMap Address DmxBuffer
  deriving DecidableEq

/-- A value for references that were never allocated. -/
def ControlledNode.none : ControlledNode := ⟨0, NodeConfig.zero, ⟨[], 0⟩, 0, []⟩

/-- controller.go:40-55: the new value of the receiver; `false` for the error result. -/
def ControlledNode.setDMXBuffer (cn : ControlledNode) (dmx : Arr 512) (address : Address) :
    ControlledNode × Bool :=
  match cn.dmxBuffer.get address with
  | .none => (cn, false)
  | some buf => ({ cn with dmxBuffer := cn.dmxBuffer.set address { buf with data := dmx, stale := true } },
      true)

/-- controller.go:58-79: `none` for the error result "unknown address". `uint16(len(map))` truncates. -/
def ControlledNode.dmxUpdate (cn : ControlledNode) (address : Address) :
    ControlledNode × Option (Bytes × Option Err) :=
  match cn.dmxBuffer.get address with
  | .none => (cn, .none)
  | some buf =>
    let cn := { cn with sequence := cn.sequence + 1 }
    let p : ArtDMX := { ArtDMX.new with
      sequence := cn.sequence
      subUni := address.subUni
      net := address.net
      length := UInt16.ofNat cn.dmxBuffer.length
      data := buf.data }
    (cn, some (p.marshalBinary).2)

/-- A payload handed to `cNode.sendCh` by the update loop. `ref` records which `*ControlledNode` it was
made from (the code does not store it). -/
structure Emission where
  ref : Ref
  address : UDPAddr
  data : Bytes
  deriving DecidableEq

/-- controller.go:82-101 without the channels, tickers and the cNode. `heap r` is the object that
reference `r` points to, `next` the next unused reference. -/
structure Ctrl where
  heap : Ref → ControlledNode
  next : Ref
  nodes : List Ref
  output : GoMap Address Ref
  input : GoMap Address Ref
  maxFPS : Int

/-- NewController with no option that matters here, followed by Start (controller.go:104-136). -/
def Ctrl.init (maxFPS : Int) : Ctrl := ⟨fun _ => .none, 0, [], [], [], maxFPS⟩

/-- Start (controller.go:121-122) of a controller that was used before: both maps are made anew, the
node list is kept. -/
def Ctrl.restart (c : Ctrl) : Ctrl := { c with output := [], input := [] }

/-- Assignment through a pointer. -/
def Ctrl.store (c : Ctrl) (r : Ref) (cn : ControlledNode) : Ctrl :=
  { c with heap := fun x => if x = r then cn else c.heap x }

/-- `for _, port := range ports { delete(m, port.Address) }` -/
def delAll (m : GoMap Address Ref) (as : List Address) : GoMap Address Ref := as.foldl GoMap.del m

/-- `for _, port := range ports { m[port.Address] = r }` -/
def setAll (m : GoMap Address Ref) (as : List Address) (r : Ref) : GoMap Address Ref :=
  as.foldl (fun m a => m.set a r) m

/-- The addresses of the output ports, in order. -/
def NodeConfig.outputs (c : NodeConfig) : List Address := c.outputPorts.map OutputPort.address

/-- The addresses of the input ports, in order. -/
def NodeConfig.inputs (c : NodeConfig) : List Address := c.inputPorts.map InputPort.address

/-- controller.go:295-349. `now` is the value of `time.Now()`. -/
def Ctrl.updateNode (c : Ctrl) (cfg : NodeConfig) (now : Int) : Ctrl :=
  match c.nodes.find? (fun r => cfg.ip == (c.heap r).node.ip) with
  | some r =>
    let output := delAll c.output (c.heap r).node.outputs
    let input := delAll c.input (c.heap r).node.inputs
    let c := c.store r { c.heap r with node := cfg, lastSeen := now }
    { c with output := setAll output cfg.outputs r, input := setAll input cfg.inputs r }
  | none =>
    let buf := cfg.outputs.foldl (fun (m : GoMap Address DmxBuffer) a => m.set a DmxBuffer.zero) []
    let r := c.next
    let c := c.store r ⟨now, cfg, ⟨cfg.ip, artNetPort.toNat⟩, 0, buf⟩
    { c with
      next := r + 1
      nodes := c.nodes ++ [r]
      output := setAll c.output cfg.outputs r
      input := setAll c.input cfg.inputs r }

/-- controller.go:187-204: the poll-reply case of pollLoop. -/
def Ctrl.pollReply (c : Ctrl) (p : ArtPollReply) (now : Int) : Ctrl :=
  let cfg := configFromArtPollReply p
  if cfg.type ≠ StyleCode.stNode ∧ cfg.type ≠ StyleCode.stController then c
  else if cfg.type = StyleCode.stController ∧ cfg.outputPorts.length = 0 then c
  else c.updateNode cfg now

/-- controller.go:214-232 -/
def Ctrl.sendDMX (c : Ctrl) (dmx : Arr 512) (address : Address) : Ctrl :=
  match c.output.get address with
  | none => c
  | some r => c.store r ((c.heap r).setDMXBuffer dmx address).1

/-- `staleAfter` (controller.go:381) -/
def staleAfter : Int := 7 * second

/-- controller.go:384-400: the loop up to the first stale node: its index, if any, and the number of
clock readings so far. `clock k` is the `k`-th value returned by `time.Now()` in this pass. -/
def gcFind (heap : Ref → ControlledNode) (clock : Nat → Int) : List Ref → Nat → Option Nat × Nat
  | [], k => (none, k)
  | r :: rs, k =>
    if (heap r).lastSeen + staleAfter < clock k then (some 0, k + 1)
    else
      let (i, k) := gcFind heap clock rs (k + 1)
      (i.map (· + 1), k)

theorem gcFind_lt (heap : Ref → ControlledNode) (clock : Nat → Int) (l : List Ref) (k i : Nat)
    (h : (gcFind heap clock l k).1 = some i) : i < l.length := by
  induction l generalizing k i with
  | nil => simp [gcFind] at h
  | cons r l ih =>
    simp only [gcFind] at h
    split at h
    · simp at h; simp; omega
    · simp only [Option.map_eq_some_iff] at h
      obtain ⟨j, hj, hi⟩ := h
      have := ih _ _ hj
      simp; omega

/-- controller.go:375-401 from the label `start` on; `k` counts the clock readings. Every `goto start`
has removed a node. -/
def Ctrl.gcFrom (c : Ctrl) (clock : Nat → Int) (k : Nat) : Ctrl :=
  match h : gcFind c.heap clock c.nodes k with
  | (none, _) => c
  | (some i, k) =>
    let r := c.nodes[i]'(gcFind_lt c.heap clock c.nodes _ i (by rw [h]))
    { c with
      output := delAll c.output (c.heap r).node.outputs
      input := delAll c.input (c.heap r).node.inputs
      nodes := c.nodes.eraseIdx i : Ctrl }.gcFrom clock k
termination_by c.nodes.length
decreasing_by
  have := gcFind_lt c.heap clock c.nodes _ i (by rw [h])
  simp only [List.length_eraseIdx, this, if_true]
  omega

/-- controller.go:375-401 -/
def Ctrl.gcNode (c : Ctrl) (clock : Nat → Int) : Ctrl := c.gcFrom clock 0

/-- controller.go:352-371 from index `i` of the loop on; `n` is the length of `c.Nodes` when the loop
started. No code calls deleteNode. -/
def Ctrl.deleteFrom (c : Ctrl) (ip : Bytes) (i n : Nat) : Go Ctrl :=
  if i < n then do
    let r ← idxL c.nodes i
    if ip == (c.heap r).node.ip then
      let c := { c with
        output := delAll c.output (c.heap r).node.outputs
        input := delAll c.input (c.heap r).node.inputs
        nodes := c.nodes.eraseIdx i }
      c.deleteFrom ip (i + 1) n
    else c.deleteFrom ip (i + 1) n
  else pure c
termination_by n - i

/-- controller.go:352-371. The second result tells whether an error is returned. -/
def Ctrl.deleteNode (c : Ctrl) (ip : Bytes) : Go (Ctrl × Bool) := do
  let c ← c.deleteFrom ip 0 c.nodes.length
  return (c, true)

/-- `forceUpdate` (controller.go:239) -/
def forceUpdate : Int := 250000000

/-- controller.go:241-255: the closure `update`; `false` when it returns an error. -/
def Ctrl.update (c : Ctrl) (r : Ref) (address : Address) (now : Int) : Ctrl × List Emission × Bool :=
  match (c.heap r).dmxUpdate address with
  | (cn, none) => (c.store r cn, [], false)
  | (cn, some (_, some _)) => (c.store r cn, [], false)
  | (cn, some (b, none)) =>
    let cn := match cn.dmxBuffer.get address with
      | none => cn
      | some buf =>
        { cn with dmxBuffer := cn.dmxBuffer.set address { buf with lastUpdate := now, stale := false } }
    (c.store r cn, [⟨r, cn.udpAddress, b⟩], true)

/-- controller.go:265-267 -/
def Ctrl.ensureBuffer (c : Ctrl) (address : Address) (r : Ref) : Ctrl :=
  match (c.heap r).dmxBuffer.get address with
  | none => c.store r { c.heap r with dmxBuffer := (c.heap r).dmxBuffer.set address DmxBuffer.zero }
  | some _ => c

/-- controller.go:265-281: the body of the range loop for the entry `address ↦ r`. The last `if` is not
reached when the first update fails (`continue`). -/
def Ctrl.tickAt (c : Ctrl) (address : Address) (r : Ref) (now : Int) : Ctrl × List Emission :=
  let c := c.ensureBuffer address r
  let buf := ((c.heap r).dmxBuffer.get address).getD .zero
  let (c, es, ok) := if buf.stale ∧ buf.lastUpdate < now - c.maxFPS then c.update r address now
    else (c, [], true)
  if ok then
    let buf := ((c.heap r).dmxBuffer.get address).getD .zero
    if buf.lastUpdate < now - forceUpdate then
      let (c, es', _) := c.update r address now
      (c, es ++ es')
    else (c, es)
  else (c, es)

/-- controller.go:264-282: the range loop, visiting the keys in the given order. The loop does not
change the map. -/
def Ctrl.tickOver (c : Ctrl) (order : List Address) (now : Int) : Ctrl × List Emission :=
  match order with
  | [] => (c, [])
  | a :: order =>
    match c.output.get a with
    | none => c.tickOver order now
    | some r =>
      let (c, es) := c.tickAt a r now
      let (c, es') := c.tickOver order now
      (c, es ++ es')

/-- controller.go:235-237: the set-up of dmxUpdateLoop: the period of the ticker.
`time.Second / fpsInterval` panics for 0, `time.NewTicker` for a period that is not positive. -/
def tickerPeriod (maxFPS : Int) : Go Int :=
  if maxFPS = 0 then .error .divideByZero
  else
    let d := Int.tdiv second maxFPS
    if d ≤ 0 then .error .nonPositiveTicker else .ok d

/-- One operation on the controller. -/
inductive Op
  /-- pollLoop takes a reply from pollReplyCh; `now` is the clock of updateNode. -/
  | reply (p : ArtPollReply) (now : Int)
  /-- pollLoop runs gcNode. -/
  | gc (clock : Nat → Int)
  /-- The user calls SendDMXToAddress. -/
  | send (dmx : Arr 512) (address : Address)
  /-- dmxUpdateLoop handles one tick, ranging over the map in the given order. -/
  | tick (order : List Address) (now : Int)
  /-- Stop followed by Start. -/
  | restart

/-- The effect of one operation and the payloads it sends. -/
def Ctrl.step (c : Ctrl) : Op → Ctrl × List Emission
  | .reply p now => (c.pollReply p now, [])
  | .gc clock => (c.gcNode clock, [])
  | .send dmx a => (c.sendDMX dmx a, [])
  | .tick order now => c.tickOver order now
  | .restart => (c.restart, [])

/-- A history: the final state and all payloads in the order in which they were sent. -/
def Ctrl.run (c : Ctrl) : List Op → Ctrl × List Emission
  | [] => (c, [])
  | o :: os =>
    let (c, es) := c.step o
    let (c, es') := c.run os
    (c, es ++ es')

/-- An operation is possible: a tick ranges over every key of the map exactly once, in any order. -/
def Ctrl.CanDo (c : Ctrl) : Op → Prop
  | .tick order _ => order.Perm c.output.keys
  | _ => True

/-- A history is possible. -/
def Ctrl.CanRun (c : Ctrl) : List Op → Prop
  | [] => True
  | o :: os => c.CanDo o ∧ (c.step o).1.CanRun os

end Verif.Artnet
