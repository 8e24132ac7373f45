import Verif.Model.Setup
/-
The constructors and the options: C84.
-/
namespace Verif.Props
open Packet Code Artnet

/-! ### C84 -/

/-- The broadcast address that an option of a node sets. -/
def setsBroadcast : NodeOption → Option UDPAddr
  | .broadcastAddress addr => some addr
  | .listenAddress _ => none
  | .listenIP _ => none

/-- The listen address that an option of a node sets. -/
def setsListen : NodeOption → Option UDPAddr
  | .broadcastAddress _ => none
  | .listenAddress addr => some addr
  | .listenIP ip => some ⟨ip, 6454⟩

/-- The value that the last option with one sets, `d` if there is none. -/
def lastOf {α β : Type} (f : α → Option β) (opts : List α) (d : β) : β := (opts.reverse.findSome? f).getD d

theorem lastOf_nil {α β : Type} (f : α → Option β) (d : β) : lastOf f [] d = d := rfl

theorem lastOf_cons {α β : Type} (f : α → Option β) (o : α) (opts : List α) (d : β) :
    lastOf f (o :: opts) d = lastOf f opts ((f o).getD d) := by
  simp only [lastOf, List.reverse_cons, List.findSome?_append, List.findSome?_cons, List.findSome?_nil]
  cases opts.reverse.findSome? f with
  | some x => rfl
  | none => cases f o <;> rfl

theorem nodeOptions (opts : List NodeOption) (n : NodeSetup) : opts.foldl NodeSetup.setOption n =
    { n with broadcastAddr := lastOf setsBroadcast opts n.broadcastAddr
             listenAddr := lastOf setsListen opts n.listenAddr } := by
  induction opts generalizing n with
  | nil => rfl
  | cons o opts ih =>
    rw [List.foldl_cons, ih, lastOf_cons, lastOf_cons]
    cases o <;> rfl

/-- C84 for nodes: the configuration has the given name, style and IP address and no ports; the local address is
that IP address with port 6454; the listen and the broadcast address are those of the last option that sets them,
by default all interfaces and 2.255.255.255, port 6454; exactly the built-in call-backs are registered; the node is
stopped. -/
theorem C84_newNode (name : Bytes) (style : StyleCode) (ip : Bytes) (opts : List NodeOption) :
    newNode name style ip opts =
      { config := { NodeConfig.zero with name := name, type := style, ip := ip }
        broadcastAddr := lastOf setsBroadcast opts ⟨[2, 255, 255, 255], 6454⟩
        localAddr := ⟨ip, 6454⟩
        listenAddr := lastOf setsListen opts ⟨[], 6454⟩
        shutdown := true
        callbacks := [(OpCode.opPoll, .poll), (OpCode.opPollReply, .pollReply)] } := by
  unfold newNode
  simp only [nodeOptions]
  rfl

example : (newNode [0x6e] 0 [10, 0, 0, 1]
      [.listenIP [10, 0, 0, 1], .broadcastAddress ⟨[10, 255, 255, 255], 7000⟩, .listenAddress ⟨[10, 0, 0, 2], 1⟩]) =
    { config := { NodeConfig.zero with name := [0x6e], type := 0, ip := [10, 0, 0, 1] }
      broadcastAddr := ⟨[10, 255, 255, 255], 7000⟩
      localAddr := ⟨[10, 0, 0, 1], 6454⟩
      listenAddr := ⟨[10, 0, 0, 2], 1⟩
      shutdown := true
      callbacks := [(OpCode.opPoll, .poll), (OpCode.opPollReply, .pollReply)] } := by decide +kernel

/-- The frame rate that an option of a controller sets. -/
def setsFPS : CtrlOption → Option Int
  | .maxFPS fps => some fps
  | .broadcastAddr _ => none
  | .listenAddress _ => none
  | .listenIP _ => none

/-- The broadcast address that an option of a controller sets. -/
def setsCtrlBroadcast : CtrlOption → Option UDPAddr
  | .maxFPS _ => none
  | .broadcastAddr addr => some addr
  | .listenAddress _ => none
  | .listenIP _ => none

/-- The listen address that an option of a controller sets. -/
def setsCtrlListen : CtrlOption → Option UDPAddr
  | .maxFPS _ => none
  | .broadcastAddr _ => none
  | .listenAddress addr => some addr
  | .listenIP ip => some ⟨ip, 6454⟩

theorem ctrlOptions (opts : List CtrlOption) (c : ControllerSetup) : opts.foldl ControllerSetup.setOption c =
    { c with maxFPS := lastOf setsFPS opts c.maxFPS
             broadcastAddr := lastOf setsCtrlBroadcast opts c.broadcastAddr
             cNode := { c.cNode with listenAddr := lastOf setsCtrlListen opts c.cNode.listenAddr } } := by
  induction opts generalizing c with
  | nil => rfl
  | cons o opts ih =>
    rw [List.foldl_cons, ih, lastOf_cons, lastOf_cons, lastOf_cons]
    cases o <;> rfl

/-- C84 for controllers: the node of the controller is a node of style StController without options of its own,
except for the listen address; the frame rate and the broadcast address are those of the last option that sets
them, by default 1000 and 2.255.255.255:6454. -/
theorem C84_newController (name ip : Bytes) (opts : List CtrlOption) :
    newController name ip opts =
      { cNode := { newNode name 1 ip [] with listenAddr := lastOf setsCtrlListen opts ⟨[], 6454⟩ }
        maxFPS := lastOf setsFPS opts 1000
        broadcastAddr := lastOf setsCtrlBroadcast opts ⟨[2, 255, 255, 255], 6454⟩ } := by
  unfold newController
  rw [ctrlOptions]
  rfl

example : (newController [0x63] [10, 0, 0, 1] [.maxFPS 40, .listenIP [10, 0, 0, 1], .maxFPS 25]).maxFPS = 25 := by
  decide +kernel

/-- C84 for SetOption: called after the constructor it has the effect of one more option of the constructor. -/
theorem C84_later :
    (∀ (name : Bytes) (style : StyleCode) (ip : Bytes) (opts : List NodeOption) (o : NodeOption),
      (newNode name style ip opts).setOption o = newNode name style ip (opts ++ [o])) ∧
    (∀ (name ip : Bytes) (opts : List CtrlOption) (o : CtrlOption),
      (newController name ip opts).setOption o = newController name ip (opts ++ [o])) := by
  constructor
  · intro name style ip opts o
    simp only [newNode, List.foldl_append]
    cases o <;> rfl
  · intro name ip opts o
    simp only [newController, List.foldl_append]
    cases o <;> rfl

example : (newController [0x63] [10, 0, 0, 1] [.maxFPS 40]).setOption (.maxFPS 25) =
    newController [0x63] [10, 0, 0, 1] [.maxFPS 40, .maxFPS 25] := by decide +kernel

end Verif.Props
