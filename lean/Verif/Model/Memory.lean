import Verif.Model.Say
/-
What happens before what (the Go memory model). Every action of Model/Conc.lean is an event of the goroutine that does it. An event
reads and writes variables that goroutines share (`touches`), and it synchronises: it may come after something has been released
(`acquires`) and release something itself (`releases`). What happens before an event is what the goroutine has done, what happened
before the `go` statement that began it, and what happened before the release of everything it has acquired.

* The `go` statement happens before the goroutine begins.
* A send happens before the receive of the same element completes; receive number n from a channel of capacity 10 happens before send
  number n + 10 completes; the closing of a channel happens before a receive that returns because of it.
* An unlock happens before the next lock.

Simplifications: a caller of SendDMXToAddress is a goroutine that the goroutine of the life cycle calls begins with `go`, so that
what that one has done before happens before the call. The socket, the tickers and the logger give no order. `Node.Config`, the
addresses and the frame rate are not written after the constructor. The variables of one kind count as one, for instance all
channels of the Node, or all that nodeLock protects: Nodes, the buffers and what they point to.
-/
namespace Verif.Conc
open Packet Code Artnet

/-- Variables that goroutines share. -/
inductive Loc
  /-- Node.callbacks (node.go:44) and the map -/
  | callbacks
  /-- Node.conn (node.go:25) -/
  | conn
  /-- Node.sendCh, recvCh, shutdownCh, pollCh, pollReplyCh (node.go:28-40) -/
  | channels
  /-- Node.shutdown (node.go:32) -/
  | shutdown
  /-- Controller.shutdownCh (controller.go:94) -/
  | ctrlDown
  /-- Controller.pollTicker and gcTicker (controller.go:99-100) -/
  | tickers
  /-- Controller.OutputAddress and InputAddress (controller.go:88-89) and the maps -/
  | tables
  /-- Controller.Nodes (controller.go:87), what it points to and the buffers -/
  | nodes
  /-- Controller.log and cNode.log -/
  | log
  deriving DecidableEq

/-- The channels of the Node that carry something. -/
inductive Pipe
  | send
  | recv
  | poll
  | pollReply
  deriving DecidableEq

/-- What an event releases and another one acquires. -/
inductive Obj
  /-- Controller.nodeLock -/
  | nodeLock
  /-- Node.shutdownLock -/
  | shutdownLock
  /-- the closed Node.shutdownCh number `g` -/
  | down (g : Nat)
  /-- the closed Controller.shutdownCh number `k` -/
  | ctrlDown (k : Nat)
  /-- element number `n` of a channel -/
  | sent (g : Nat) (q : Pipe) (n : Nat)
  /-- the place of element number `n` of a channel -/
  | free (g : Nat) (q : Pipe) (n : Nat)
  deriving DecidableEq

/-- What the next step of a goroutine reads (`false`) and writes (`true`). -/
def Thread.touches : Thread → List (Loc × Bool)
  -- node.go:158-175, 168, 184-189, 248-267, 243, 291, 303, controller.go:169-181
  | .prTop _ | .prGot _ | .slTop | .rlTop | .rdGot _ _ | .hPollTop _ | .hReplyTop _ | .plSendTop | .plPollTop =>
    [(.channels, false)]
  -- node.go:190, 217
  | .slCheck _ | .rdCheck _ _ => [(.shutdown, false)]
  -- node.go:194, 216
  | .slWrite _ | .rdTop _ => [(.conn, false)]
  -- node.go:275
  | .hStart _ => [(.callbacks, false)]
  -- controller.go:174-206
  | .plTop => [(.channels, false), (.ctrlDown, false), (.tickers, false)]
  -- controller.go:259-286
  | .duTop => [(.ctrlDown, false)]
  -- controller.go:375-401
  | .plGc => [(.tables, true), (.nodes, true)]
  -- controller.go:188-204, 295-349
  | .plGot p => if ignored p then [] else [(.tables, true), (.nodes, true)]
  -- controller.go:264
  | .duLock => [(.tables, false)]
  -- controller.go:264-282
  | .duTick [] (_ :: _) _ => [(.tables, false), (.nodes, true)]
  -- controller.go:250
  | .duTick (_ :: _) _ _ => [(.channels, false)]
  -- controller.go:215-232
  | .caller _ _ => [(.log, false), (.tables, false), (.nodes, true)]
  | _ => []

/-- What an action reads (`false`) and writes (`true`). -/
def Sys.touches (P : Params) (s : Sys) : Act → List (Loc × Bool)
  -- controller.go:121-125, node.go:122-127
  | .start =>
    (if P.controller then [(.tables, true), (.ctrlDown, true), (.log, true)] else []) ++
    match P.config.validate with
    | .ok none => [(.channels, true), (.shutdown, true)]
    | _ => []
  -- node.go:135, controller.go:130-131
  | .listen ok => if ok then (.conn, true) :: if P.controller then [(.tickers, true)] else [] else []
  -- controller.go:140-141, node.go:99
  | .stop => (.shutdown, true) :: if P.controller then [(.tickers, false)] else []
  | .stopStep =>
    match s.control with
    -- node.go:101
    | .closing => [(.channels, false)]
    -- node.go:102-103
    | .disconnecting => [(.conn, false)]
    -- controller.go:144-148
    | .ending => [(.channels, false), (.ctrlDown, false)]
    | _ => []
  -- node.go:311-316, 323-328
  | .register _ _ | .deregister _ => (.shutdown, false) :: if s.shutdown then [(.callbacks, true)] else []
  | .call _ _ => []
  | .run i c =>
    match s.threads[i]? with
    | none => []
    | some t => t.touches ++ if s.stepLines P t c = [] then [] else [(.log, false)]

/-- The number of a step of a goroutine in a channel: a send or a receive. -/
inductive Comm
  | put (g : Nat) (q : Pipe)
  | get (g : Nat) (q : Pipe)
  deriving DecidableEq

/-- The communication in a step of a goroutine. -/
def Thread.comm? : Thread → Choice → Option Comm
  | .prWait g _, .next => some (.get g .poll)
  | .prSend g _, .next => some (.put g .send)
  | .slWait g, .next => some (.get g .send)
  | .rlWait g, .next => some (.get g .recv)
  | .rdPush g _ _, .next => some (.put g .recv)
  | .hPoll g _, .next => some (.put g .poll)
  | .hReply g _, .next => some (.put g .pollReply)
  | .plSend g, .next => some (.put g .send)
  | .plPoll g, .next => some (.put g .poll)
  | .plWait g _, .next => some (.get g .pollReply)
  | .duSend g _ _ _ _, .next => some (.put g .send)
  | _, _ => none

/-- What a step of a goroutine acquires, apart from communications. -/
def Thread.acquires : Thread → Choice → List Obj
  | .prWait g _, .down | .slWait g, .down | .rlWait g, .down => [.down g]
  | .plWait _ k, .down | .duWait k, .down => [.ctrlDown k]
  -- node.go:110
  | .slCheck _, _ | .rdCheck _ _, _ => [.shutdownLock]
  -- controller.go:217, 263, 296, 376
  | .plGc, _ | .duLock, _ | .caller _ _, _ => [.nodeLock]
  | .plGot p, _ => if ignored p then [] else [.nodeLock]
  | _, _ => []

/-- What a step of a goroutine releases, apart from communications. -/
def Thread.releases : Thread → List Obj
  -- node.go:111
  | .slCheck _ | .rdCheck _ _ => [.shutdownLock]
  -- controller.go:218, 284, 297, 377
  | .plGc | .caller _ _ | .duTick [] [] _ => [.nodeLock]
  | .plGot p => if ignored p then [] else [.nodeLock]
  | _ => []

/-- A system and what happens before what. Events are numbered; a set of events is a function. -/
structure Memory where
  sys : Sys
  /-- the events: who (`none` is the goroutine of the life cycle calls), and what it touches -/
  events : List (Option Nat × List (Loc × Bool))
  /-- what happens before the next event of a goroutine -/
  seen : Option Nat → Nat → Bool
  /-- what happens before an acquisition -/
  held : Obj → Nat → Bool
  /-- how many elements were sent -/
  puts : Nat → Pipe → Nat
  /-- how many elements were received -/
  gets : Nat → Pipe → Nat

/-- The state after the constructor. -/
def Memory.init (P : Params) : Memory :=
  ⟨Sys.init P, [], fun _ _ => false, fun _ _ => false, fun _ _ => 0, fun _ _ => 0⟩

/-- The communication of an action. -/
def Memory.comm? (m : Memory) : Act → Option Comm
  | .run i c => (m.sys.threads[i]?).bind fun t => t.comm? c
  | _ => none

/-- What an action acquires. -/
def Memory.acquires (m : Memory) (a : Act) : List Obj :=
  (match m.comm? a with
    | some (.put g q) => if capacity ≤ m.puts g q then [.free g q (m.puts g q - capacity)] else []
    | some (.get g q) => [.sent g q (m.gets g q)]
    | none => []) ++
  match a with
  -- node.go:98, 110
  | .stop | .register _ _ | .deregister _ => [.shutdownLock]
  | .run i c => match m.sys.threads[i]? with
    | some t => t.acquires c
    | none => []
  | _ => []

/-- What an action releases. -/
def Memory.releases (m : Memory) (a : Act) : List Obj :=
  (match m.comm? a with
    | some (.put g q) => [.sent g q (m.puts g q)]
    | some (.get g q) => [.free g q (m.gets g q)]
    | none => []) ++
  match a with
  -- node.go:100, 111
  | .stop | .register _ _ | .deregister _ => [.shutdownLock]
  | .stopStep =>
    match m.sys.control, m.sys.cur, m.sys.ccur with
    -- node.go:101
    | .closing, some g, _ => [.down g]
    -- controller.go:148
    | .ending, _, some k => [.ctrlDown k]
    | _, _, _ => []
  | .run i _ => match m.sys.threads[i]? with
    | some t => t.releases
    | none => []
  | _ => []

/-- Who does an action. -/
def Act.who : Act → Option Nat
  | .run i _ => some i
  | _ => none

/-- The events that happen before an action. -/
def Memory.before (m : Memory) (a : Act) (k : Nat) : Bool :=
  m.seen a.who k || (m.acquires a).any fun o => m.held o k

/-- The state after an action; `none` when it is not possible. -/
def Memory.exec (P : Params) (m : Memory) (a : Act) : Option Memory :=
  match m.sys.exec P a with
  | none => none
  | some s =>
    let mine := fun k => m.before a k || k == m.events.length
    some {
      sys := s
      events := m.events ++ [(a.who, m.sys.touches P a)]
      seen := fun w => if w = a.who then mine else
        match w with
        | none => m.seen none
        | some j => if m.sys.threads.length ≤ j ∧ j < s.threads.length then mine else m.seen (some j)
      held := fun o => if o ∈ m.releases a then fun k => m.held o k || mine k else m.held o
      puts := fun g q => m.puts g q + if m.comm? a = some (.put g q) then 1 else 0
      gets := fun g q => m.gets g q + if m.comm? a = some (.get g q) then 1 else 0 }

/-- The state after a list of actions. -/
def Memory.execs (P : Params) (m : Memory) : List Act → Option Memory
  | [] => some m
  | a :: as =>
    match m.exec P a with
    | none => none
    | some m => m.execs P as

end Verif.Conc
