import Verif.Model.Controller
/-
The controller with the `time.Time` of the Go standard library instead of a number.

A `time.Time` that comes from `time.Now` has a reading of the wall clock, which can be set at any moment, and a reading of
the monotonic clock, which cannot. `Before` compares the monotonic readings if both times have one, and the wall clock
otherwise. This is Go's package time from version 1.9 on (section "Monotonic Clocks" of its documentation; `Now`, `Add`,
`Before`, `addSec`, `stripMono` in time.go). Simplifications: the wall clock is a whole number of nanoseconds without bounds
(the library saturates 292 thousand million years from the year 1); time zones play no role in comparisons.

Everything else is Model/Controller.lean, line by line.
-/
namespace Verif.Clock
open Packet Code Artnet

/-- What the operating system answers to `time.Now`: nanoseconds since the beginning of the year 1 by the wall clock, and
nanoseconds since the start of the process by the monotonic clock. -/
structure Reading where
  wall : Int
  mono : Int
  deriving DecidableEq

/-- `time.Time` -/
structure Time where
  wall : Int
  mono : Option Int
  deriving DecidableEq

/-- `time.Time{}` -/
def Time.zero : Time := ⟨0, none⟩

/-- The seconds from the year 1 to the year 1885 (`minWall`). -/
def minWall : Int := 59453308800

/-- The seconds of the wall clock fit into the 33 bits that are left beside a monotonic reading: 1885 to 2157. -/
def Packs (wall : Int) : Prop := minWall * second ≤ wall ∧ wall < (minWall + 8589934592) * second

instance (wall : Int) : Decidable (Packs wall) := by unfold Packs; infer_instance

/-- A value of the type int64. -/
def Fits (x : Int) : Prop := -9223372036854775808 ≤ x ∧ x < 9223372036854775808

instance (x : Int) : Decidable (Fits x) := by unfold Fits; infer_instance

/-- `time.Now()` -/
def Time.now (r : Reading) : Time := ⟨r.wall, if Packs r.wall then some r.mono else none⟩

/-- `t.Add(d)` -/
def Time.add (t : Time) (d : Int) : Time :=
  ⟨t.wall + d, t.mono.bind fun m => if Packs (t.wall + d) ∧ Fits (m + d) then some (m + d) else none⟩

/-- `t.Before(u)` -/
def Time.before (t u : Time) : Bool :=
  match t.mono, u.mono with
  | some a, some b => a < b
  | _, _ => t.wall < u.wall

/-- controller.go:33-37 -/
structure Buffer where
  data : Arr 512
  lastUpdate : Time
  stale : Bool
  deriving DecidableEq

/-- `&dmxBuffer{}` -/
def Buffer.zero : Buffer := ⟨Arr.zero 512, Time.zero, false⟩

/-- controller.go:23-31 -/
structure Node where
  lastSeen : Time
  node : NodeConfig
  udpAddress : UDPAddr
  sequence : UInt8
  dmxBuffer : GoMap Address Buffer
  deriving DecidableEq

/-- A value for references that were never allocated. -/
def Node.none : Node := ⟨Time.zero, NodeConfig.zero, ⟨[], 0⟩, 0, []⟩

/-- controller.go:40-55 -/
def Node.setDMXBuffer (cn : Node) (dmx : Arr 512) (address : Address) : Node :=
  match cn.dmxBuffer.get address with
  | .none => cn
  | some buf => { cn with dmxBuffer := cn.dmxBuffer.set address { buf with data := dmx, stale := true } }

/-- controller.go:58-79 -/
def Node.dmxUpdate (cn : Node) (address : Address) : Node × Option (Bytes × Option Err) :=
  match cn.dmxBuffer.get address with
  | .none => (cn, .none)
  | some buf =>
    let cn := { cn with sequence := cn.sequence + 1 }
    let p : ArtDMX := { ArtDMX.new with
      sequence := cn.sequence
      subUni := address.subUni
      net := address.net
      length := UInt16.ofNat cn.dmxBuffer.length
      data := buf.data }
    (cn, some (p.marshalBinary).2)

/-- controller.go:82-101 -/
structure State where
  heap : Ref → Node
  next : Ref
  nodes : List Ref
  output : GoMap Address Ref
  input : GoMap Address Ref
  maxFPS : Int

/-- controller.go:104-136 -/
def State.init (maxFPS : Int) : State := ⟨fun _ => .none, 0, [], [], [], maxFPS⟩

/-- Assignment through a pointer. -/
def State.store (s : State) (r : Ref) (cn : Node) : State :=
  { s with heap := fun x => if x = r then cn else s.heap x }

/-- controller.go:295-349 -/
def State.updateNode (s : State) (cfg : NodeConfig) (now : Reading) : State :=
  match s.nodes.find? (fun r => cfg.ip == (s.heap r).node.ip) with
  | some r =>
    let output := delAll s.output (s.heap r).node.outputs
    let input := delAll s.input (s.heap r).node.inputs
    let s := s.store r { s.heap r with node := cfg, lastSeen := Time.now now }
    { s with output := setAll output cfg.outputs r, input := setAll input cfg.inputs r }
  | none =>
    let buf := cfg.outputs.foldl (fun (m : GoMap Address Buffer) a => m.set a Buffer.zero) []
    let r := s.next
    let s := s.store r ⟨Time.now now, cfg, ⟨cfg.ip, artNetPort.toNat⟩, 0, buf⟩
    { s with
      next := r + 1
      nodes := s.nodes ++ [r]
      output := setAll s.output cfg.outputs r
      input := setAll s.input cfg.inputs r }

/-- controller.go:187-204 -/
def State.pollReply (s : State) (p : ArtPollReply) (now : Reading) : State :=
  let cfg := configFromArtPollReply p
  if cfg.type ≠ StyleCode.stNode ∧ cfg.type ≠ StyleCode.stController then s
  else if cfg.type = StyleCode.stController ∧ cfg.outputPorts.length = 0 then s
  else s.updateNode cfg now

/-- controller.go:214-232 -/
def State.sendDMX (s : State) (dmx : Arr 512) (address : Address) : State :=
  match s.output.get address with
  | none => s
  | some r => s.store r ((s.heap r).setDMXBuffer dmx address)

/-- controller.go:384-400: the loop up to the first stale node (controller.go:385). -/
def staleAt (heap : Ref → Node) (clock : Nat → Reading) : List Ref → Nat → Option Nat × Nat
  | [], k => (none, k)
  | r :: rs, k =>
    if ((heap r).lastSeen.add staleAfter).before (Time.now (clock k)) then (some 0, k + 1)
    else
      let (i, k) := staleAt heap clock rs (k + 1)
      (i.map (· + 1), k)

/-- controller.go:383-400: at most `n` passes, each but the last removes a node. -/
def State.gcLoop (clock : Nat → Reading) : Nat → Nat → State → State
  | 0, _, s => s
  | n + 1, k, s =>
    match staleAt s.heap clock s.nodes k with
    | (none, _) => s
    | (some i, k) =>
      match s.nodes[i]? with
      | none => s
      | some r => State.gcLoop clock n k { s with
          output := delAll s.output (s.heap r).node.outputs
          input := delAll s.input (s.heap r).node.inputs
          nodes := s.nodes.eraseIdx i }

/-- controller.go:375-401 -/
def State.gcNode (s : State) (clock : Nat → Reading) : State := s.gcLoop clock (s.nodes.length + 1) 0

/-- controller.go:241-255 -/
def State.update (s : State) (r : Ref) (address : Address) (now : Time) : State × List Emission × Bool :=
  match (s.heap r).dmxUpdate address with
  | (cn, none) => (s.store r cn, [], false)
  | (cn, some (_, some _)) => (s.store r cn, [], false)
  | (cn, some (b, none)) =>
    let cn := match cn.dmxBuffer.get address with
      | none => cn
      | some buf =>
        { cn with dmxBuffer := cn.dmxBuffer.set address { buf with lastUpdate := now, stale := false } }
    (s.store r cn, [⟨r, cn.udpAddress, b⟩], true)

/-- controller.go:265-267 -/
def State.ensureBuffer (s : State) (address : Address) (r : Ref) : State :=
  match (s.heap r).dmxBuffer.get address with
  | none => s.store r { s.heap r with dmxBuffer := (s.heap r).dmxBuffer.set address Buffer.zero }
  | some _ => s

/-- controller.go:265-281 -/
def State.tickAt (s : State) (address : Address) (r : Ref) (now : Time) : State × List Emission :=
  let s := s.ensureBuffer address r
  let buf := ((s.heap r).dmxBuffer.get address).getD .zero
  let (s, es, ok) := if buf.stale ∧ buf.lastUpdate.before (now.add (-s.maxFPS)) then s.update r address now
    else (s, [], true)
  if ok then
    let buf := ((s.heap r).dmxBuffer.get address).getD .zero
    if buf.lastUpdate.before (now.add (-forceUpdate)) then
      let (s, es', _) := s.update r address now
      (s, es ++ es')
    else (s, es)
  else (s, es)

/-- controller.go:264-282 -/
def State.tickOver (s : State) (order : List Address) (now : Time) : State × List Emission :=
  match order with
  | [] => (s, [])
  | a :: order =>
    match s.output.get a with
    | none => s.tickOver order now
    | some r =>
      let (s, es) := s.tickAt a r now
      let (s, es') := s.tickOver order now
      (s, es ++ es')

/-- One operation on the controller, with the readings of the clocks. -/
inductive Event
  | reply (p : ArtPollReply) (now : Reading)
  | gc (clock : Nat → Reading)
  | send (dmx : Arr 512) (address : Address)
  | tick (order : List Address) (now : Reading)
  | restart

/-- The effect of one operation and the payloads it sends. -/
def State.step (s : State) : Event → State × List Emission
  | .reply p now => (s.pollReply p now, [])
  | .gc clock => (s.gcNode clock, [])
  | .send dmx a => (s.sendDMX dmx a, [])
  | .tick order now => s.tickOver order (Time.now now)
  | .restart => ({ s with output := [], input := [] }, [])

/-- A history: the final state and all payloads in the order in which they were sent. -/
def State.run (s : State) : List Event → State × List Emission
  | [] => (s, [])
  | e :: es =>
    let (s, l) := s.step e
    let (s, l') := s.run es
    (s, l ++ l')

/-- controller.go:235-237 with the machine's int64: the period of the ticker. `time.Duration(c.maxFPS)` is exact: an int has
at most 64 bits. -/
def tickerPeriod64 (maxFPS : Int64) : Go Int64 :=
  if maxFPS = 0 then .error .divideByZero
  else
    let d := (1000000000 : Int64) / maxFPS
    if d ≤ 0 then .error .nonPositiveTicker else .ok d

end Verif.Clock
