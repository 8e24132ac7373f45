import Verif.Model.Conc
/-
Start, Stop, RegisterCallback and DeregisterCallback called by any number of goroutines at the same time, one statement
after the other. Model/Conc.lean has these calls made by one goroutine; here the goroutines that Start begins are only
counted.

One step is one statement that uses shared fields; `close(n.shutdownCh)` is two steps, the evaluation of the operand and the
closing. Memory is sequentially consistent. The operating system decides whether a call of net.ListenPacket succeeds. The
maps made at controller.go:121-122 and logging are not modelled.
-/
namespace Verif.Callers
open Packet Code Artnet Conc

/-- The shared fields: node.go:25-44, controller.go:94-100. Channels and connections are numbered in the order in which they
are made. -/
structure Fields where
  callbacks : GoMap OpCode Handler
  shutdown : Bool
  /-- every Node.shutdownCh made, `true` once closed -/
  downs : List Bool
  /-- the field shutdownCh of the Node -/
  down : Option Nat
  /-- every connection made, `true` while open -/
  conns : List Bool
  conn : Option Nat
  /-- the field shutdownErr is not nil -/
  err : Bool
  /-- the tickers of the Controller were made -/
  tickers : Bool
  /-- every Controller.shutdownCh made, `true` once closed -/
  cdowns : List Bool
  /-- the field shutdownCh of the Controller -/
  cdown : Option Nat

/-- The shared fields, the calls that made the other channels of the Node, and how often loops have been begun. -/
structure Shared where
  fields : Fields
  send : Option Nat
  recv : Option Nat
  poll : Option Nat
  reply : Option Nat
  /-- how often node.go:137-139 was reached -/
  loops : Nat
  /-- how often controller.go:133-134 was reached -/
  cloops : Nat

inductive Kind
  | start
  | stop
  | register (o : OpCode) (h : Handler)
  | deregister (o : OpCode)

/-- What a call does next. -/
inductive Pc
  /-- controller.go:123 -/
  | makeCDown
  /-- node.go:117-119 -/
  | validate
  /-- node.go:122 -/
  | makeSend
  /-- node.go:123 -/
  | makeRecv
  /-- node.go:124 -/
  | makePoll
  /-- node.go:125 -/
  | makeReply
  /-- node.go:126 -/
  | makeDown
  /-- node.go:127 -/
  | lower
  /-- node.go:129 -/
  | listen
  /-- node.go:131-133 -/
  | fail
  /-- node.go:135 -/
  | plug (k : Nat)
  /-- node.go:137-141 -/
  | begin
  /-- controller.go:130-131 -/
  | tick
  /-- controller.go:133-134 -/
  | beginC
  /-- controller.go:135 -/
  | result
  /-- controller.go:140-141 -/
  | halt
  /-- node.go:98-100 -/
  | raise
  /-- node.go:101: the operand -/
  | load
  /-- node.go:101 -/
  | close (k : Option Nat)
  /-- node.go:102 -/
  | test
  /-- node.go:103-105 -/
  | unplug
  /-- controller.go:145: the operand -/
  | loadWait
  /-- controller.go:144-146 -/
  | wait (k : Option Nat)
  /-- controller.go:148: the operand -/
  | loadC
  /-- controller.go:148 -/
  | closeC (k : Option Nat)
  /-- node.go:312-315, 324-327 -/
  | check
  /-- node.go:317, 329 -/
  | write
  /-- the call has returned; for Start, whether nil was returned -/
  | returned (ok : Bool)
  deriving DecidableEq

/-- The first statement of a call. -/
def Kind.first (P : Params) : Kind → Pc
  | .start => if P.controller then .makeCDown else .validate
  | .stop => if P.controller then .halt else .raise
  | _ => .check

/-- `close(ch)` for the channel with number `k` of `l`. -/
def closeCh (l : List Bool) : Option Nat → Go (List Bool)
  | none => .error .closeOfNilChannel
  | some k => if l[k]? = some true then .error .closeOfClosedChannel else .ok (l.set k true)

/-- The next statement of call number `i`, which is of kind `κ` and at `pc`; `ok` tells whether net.ListenPacket succeeds.
`none` when the call has to wait or has returned. -/
def step (P : Params) (i : Nat) (κ : Kind) (ok : Bool) (s : Shared) : Pc → Option (Go (Shared × Pc))
  | .makeCDown => some (.ok ({ s with
      fields.cdowns := s.fields.cdowns ++ [false], fields.cdown := some s.fields.cdowns.length }, .validate))
  | .validate => some do
      match ← P.config.validate with
      | some _ => pure (s, .returned false)
      | none => pure (s, .makeSend)
  | .makeSend => some (.ok ({ s with send := some i }, .makeRecv))
  | .makeRecv => some (.ok ({ s with recv := some i }, .makePoll))
  | .makePoll => some (.ok ({ s with poll := some i }, .makeReply))
  | .makeReply => some (.ok ({ s with reply := some i }, .makeDown))
  | .makeDown => some (.ok ({ s with
      fields.downs := s.fields.downs ++ [false], fields.down := some s.fields.downs.length }, .lower))
  | .lower => some (.ok ({ s with fields.shutdown := false }, .listen))
  | .listen =>
    if ok then some (.ok ({ s with fields.conns := s.fields.conns ++ [true] }, .plug s.fields.conns.length))
    else some (.ok (s, .fail))
  | .fail => some (.ok ({ s with fields.err := true }, .returned false))
  | .plug k => some (.ok ({ s with fields.conn := some k }, .begin))
  | .begin => some (.ok ({ s with loops := s.loops + 1 }, if P.controller then .tick else .returned true))
  | .tick => some (.ok ({ s with fields.tickers := true }, .beginC))
  | .beginC => some (.ok ({ s with cloops := s.cloops + 1 }, .result))
  | .result => some (.ok (s, .returned !s.fields.err))
  | .halt => some (if s.fields.tickers then .ok (s, .raise) else .error .nilDereference)
  | .raise => some (.ok ({ s with fields.shutdown := true }, .load))
  | .load => some (.ok (s, .close s.fields.down))
  | .close k => some do
      let l ← closeCh s.fields.downs k
      pure ({ s with fields.downs := l }, .test)
  | .test => some (.ok (s, if s.fields.conn = none then (if P.controller then .loadWait else .returned true) else .unplug))
  | .unplug =>
    match s.fields.conn with
    | none => some (.error .nilDereference)
    | some k => some (.ok ({ s with fields.conns := s.fields.conns.set k false },
        if P.controller then .loadWait else .returned true))
  | .loadWait => some (.ok (s, .wait s.fields.down))
  -- a receive from a nil channel blocks for ever
  | .wait none => none
  | .wait (some k) => if s.fields.downs[k]? = some true then some (.ok (s, .loadC)) else none
  | .loadC => some (.ok (s, .closeC s.fields.cdown))
  | .closeC k => some do
      let l ← closeCh s.fields.cdowns k
      pure ({ s with fields.cdowns := l }, .returned true)
  | .check => some (.ok (s, if s.fields.shutdown then .write else .returned true))
  | .write =>
    match κ with
    | .register o h => some (.ok ({ s with fields.callbacks := s.fields.callbacks.set o h }, .returned true))
    | .deregister o => some (.ok ({ s with fields.callbacks := s.fields.callbacks.del o }, .returned true))
    | _ => none
  | .returned _ => none

structure State where
  shared : Shared
  calls : List (Kind × Pc)
  crashed : Option Fault

/-- The state after the constructor. -/
def State.init : State where
  shared := {
    fields := {
      callbacks := [(OpCode.opPoll, .poll), (OpCode.opPollReply, .pollReply)]
      shutdown := true
      downs := []
      down := none
      conns := []
      conn := none
      err := false
      tickers := false
      cdowns := []
      cdown := none }
    send := none
    recv := none
    poll := none
    reply := none
    loops := 0
    cloops := 0 }
  calls := []
  crashed := none

inductive Act
  /-- a goroutine makes a call -/
  | call (κ : Kind)
  /-- a call goes on -/
  | go (i : Nat) (ok : Bool)

/-- The state after an action; `none` when it is not possible. -/
def State.exec (P : Params) (s : State) (a : Act) : Option State :=
  if s.crashed.isSome then none else
  match a with
  | .call κ => some { s with calls := s.calls ++ [(κ, κ.first P)] }
  | .go i ok =>
    match s.calls[i]? with
    | none => none
    | some (κ, pc) =>
      match step P i κ ok s.shared pc with
      | none => none
      | some (.error f) => some { s with crashed := some f }
      | some (.ok (sh, pc')) => some { s with shared := sh, calls := s.calls.set i (κ, pc') }

/-- The state after a list of actions. -/
def State.execs (P : Params) (s : State) : List Act → Option State
  | [] => some s
  | a :: as =>
    match s.exec P a with
    | none => none
    | some s => s.execs P as

/-- The states that can be reached. -/
def Reach (P : Params) (s : State) : Prop := ∃ as, State.init.execs P as = some s

end Verif.Callers
