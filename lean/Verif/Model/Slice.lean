import Verif.Model.Controller
/-
The field Nodes of a Controller as what it is, a slice: an array of pointers in memory and a length. Model/Controller.lean has a list in
its place. `append` writes into the array when there is room and makes a new array otherwise; how much room a new array has is up to
the runtime (`room`). What has been read from the field Nodes before is a slice of the same array and sees what is written to it.

Simplification: SendDMXToAddress, dmxUpdateLoop and Start do not use Nodes and are taken from Model/Controller.lean.
-/
namespace Verif.Artnet
open Packet Code

/-- A `[]*ControlledNode` that begins at the start of array number `arr`. -/
structure Slice where
  arr : Nat
  len : Nat
  deriving DecidableEq

/-- The arrays in memory; `none` is a nil pointer. -/
abbrev Arrays := List (List (Option Ref))

/-- The elements of a slice. -/
def Slice.slots (m : Arrays) (s : Slice) : List (Option Ref) := (m.getD s.arr []).take s.len

/-- `append(s, r)` (controller.go:338) -/
def Slice.append (m : Arrays) (s : Slice) (r : Ref) (room : Nat) : Arrays × Slice :=
  let a := m.getD s.arr []
  if s.len < a.length then (m.set s.arr (a.set s.len (some r)), ⟨s.arr, s.len + 1⟩)
  else (m ++ [a.take s.len ++ some r :: List.replicate room none], ⟨m.length, s.len + 1⟩)

/-- `append(s[:i], s[i+1:]...)` (controller.go:397): there is room, the elements are copied within the array. -/
def Slice.remove (m : Arrays) (s : Slice) (i : Nat) : Arrays × Slice :=
  let a := m.getD s.arr []
  (m.set s.arr (a.take i ++ (a.take s.len).drop (i + 1) ++ a.drop (s.len - 1)), ⟨s.arr, s.len - 1⟩)

/-- controller.go:82-101 without the channels, tickers and the cNode. -/
structure Store where
  heap : Ref → ControlledNode
  next : Ref
  arrays : Arrays
  nodes : Slice
  output : GoMap Address Ref
  input : GoMap Address Ref
  maxFPS : Int

/-- NewController: Nodes is nil, a slice of an array without elements. -/
def Store.init (maxFPS : Int) : Store := ⟨fun _ => .none, 0, [[]], ⟨0, 0⟩, [], [], maxFPS⟩

/-- The pointers in Nodes; every loop over Nodes dereferences them. -/
def Store.pointers (st : Store) : Go (List Ref) :=
  (st.nodes.slots st.arrays).mapM fun
    | some r => pure r
    | none => .error .nilDereference

/-- controller.go:295-349 -/
def Store.updateNode (st : Store) (cfg : NodeConfig) (now : Int) (room : Nat) : Go Store := do
  let l ← st.pointers
  match l.find? (fun r => cfg.ip == (st.heap r).node.ip) with
  | some r =>
    return { st with
      heap := fun x => if x = r then { st.heap r with node := cfg, lastSeen := now } else st.heap x
      output := setAll (delAll st.output (st.heap r).node.outputs) cfg.outputs r
      input := setAll (delAll st.input (st.heap r).node.inputs) cfg.inputs r }
  | none =>
    let buf := cfg.outputs.foldl (fun (m : GoMap Address DmxBuffer) a => m.set a DmxBuffer.zero) []
    let r := st.next
    return { st with
      heap := fun x => if x = r then ⟨now, cfg, ⟨cfg.ip, artNetPort.toNat⟩, 0, buf⟩ else st.heap x
      next := r + 1
      arrays := (st.nodes.append st.arrays r room).1
      nodes := (st.nodes.append st.arrays r room).2
      output := setAll st.output cfg.outputs r
      input := setAll st.input cfg.inputs r }

/-- controller.go:383-400: at most `n` passes, each but the last removes a node. -/
def Store.gcLoop (clock : Nat → Int) : Nat → Nat → Store → Go Store
  | 0, _, st => pure st
  | n + 1, k, st => do
    let l ← st.pointers
    match gcFind st.heap clock l k with
    | (none, _) => return st
    | (some i, k) =>
      let r ← idxL l i
      Store.gcLoop clock n k { st with
        arrays := (st.nodes.remove st.arrays i).1
        nodes := (st.nodes.remove st.arrays i).2
        output := delAll st.output (st.heap r).node.outputs
        input := delAll st.input (st.heap r).node.inputs }

/-- controller.go:375-401 -/
def Store.gcNode (st : Store) (clock : Nat → Int) : Go Store := st.gcLoop clock (st.nodes.len + 1) 0

/-- What SendDMXToAddress, dmxUpdateLoop and Start do, which do not use Nodes. -/
def Store.other (st : Store) (o : Op) : Store × List Emission :=
  let c := (⟨st.heap, st.next, [], st.output, st.input, st.maxFPS⟩ : Ctrl).step o
  ({ st with heap := c.1.heap, next := c.1.next, output := c.1.output, input := c.1.input, maxFPS := c.1.maxFPS }, c.2)

/-- The effect of one operation and the payloads it sends. -/
def Store.step (st : Store) (o : Op) (room : Nat) : Go (Store × List Emission) :=
  match o with
  -- controller.go:187-204
  | .reply p now => do
    let cfg := configFromArtPollReply p
    if cfg.type ≠ StyleCode.stNode ∧ cfg.type ≠ StyleCode.stController then return (st, [])
    else if cfg.type = StyleCode.stController ∧ cfg.outputPorts.length = 0 then return (st, [])
    else return (← st.updateNode cfg now room, [])
  | .gc clock => do return (← st.gcNode clock, [])
  | .send dmx a => return st.other (.send dmx a)
  | .tick order now => return st.other (.tick order now)
  | .restart => return st.other .restart

/-- A history: every operation with the room that a new array would have. -/
def Store.run (st : Store) : List (Op × Nat) → Go (Store × List Emission)
  | [] => return (st, [])
  | (o, room) :: os => do
    let (st, es) ← st.step o room
    let (st, es') ← st.run os
    return (st, es ++ es')

end Verif.Artnet
