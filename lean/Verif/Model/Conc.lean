import Verif.Model.Setup
/-
Model of the goroutines of node.go and controller.go, of their channels and of the life cycle calls
Start, Stop, RegisterCallback and DeregisterCallback, as an interleaving state machine.

One system is one Node, or one Controller together with its cNode. A state holds the shared fields, the
channels of every Start so far, and one program counter per goroutine; an action lets one goroutine do
one step, a step being one communication or one block of statements between communications. `exec` gives
the state after an action, `none` when the action is not possible (a blocked goroutine). A `select` with
several ready cases and every result of the environment (clock, tickers, socket, map order) is a choice
that is part of the action.

Simplifications:
* Memory is sequentially consistent. The unsynchronised accesses of the code (for instance to n.shutdownCh
  or n.conn) are single steps.
* Start, Stop, RegisterCallback and DeregisterCallback are called by one goroutine, one after the other.
  The assignments at node.go:122-127 are one step.
* Tickers may fire at any moment, also after Stop; the tickers themselves are in Model/Tickers.lean.
* Node.Config is not changed after the constructor. User call-backs return at once and do not call back.
* ControlledNode.nodeLock is only taken while Controller.nodeLock is held and is not modelled.
* Logging has no effect on the state; the entries are in Model/Say.lean.
-/
namespace Verif.Conc
open Packet Code Artnet

/-- node.go:48-52. The field `err` is always nil. -/
structure Payload where
  address : UDPAddr
  data : Bytes
  deriving DecidableEq

/-- The capacity of the channels (node.go:122-125). -/
def capacity : Nat := 10

/-- The channels made by one Start (node.go:122-126). `down` tells that shutdownCh was closed. `enq` and
`taken` record everything that was ever put into and taken out of sendCh. -/
structure Chans where
  send : List Payload
  recv : List Payload
  poll : List ArtPoll
  pollReply : List ArtPollReply
  down : Bool
  enq : List Payload
  taken : List Payload
  deriving DecidableEq

/-- node.go:122-126 -/
def Chans.make : Chans := ⟨[], [], [], [], false, [], []⟩

/-- `sendCh <- p` -/
def Chans.pushSend (p : Payload) (c : Chans) : Option Chans :=
  if c.send.length < capacity then some { c with send := c.send ++ [p], enq := c.enq ++ [p] } else none

/-- `recvCh <- p` -/
def Chans.pushRecv (p : Payload) (c : Chans) : Option Chans :=
  if c.recv.length < capacity then some { c with recv := c.recv ++ [p] } else none

/-- `pollCh <- p` -/
def Chans.pushPoll (p : ArtPoll) (c : Chans) : Option Chans :=
  if c.poll.length < capacity then some { c with poll := c.poll ++ [p] } else none

/-- `pollReplyCh <- p` -/
def Chans.pushReply (p : ArtPollReply) (c : Chans) : Option Chans :=
  if c.pollReply.length < capacity then some { c with pollReply := c.pollReply ++ [p] } else none

/-- The program counters of the goroutines. A `Nat` argument is the channel generation (the number of the
Start call) that the channel operands of the statement were evaluated to. -/
inductive Thread
  /-- pollReplyLoop: at its first statement. -/
  | prInit
  /-- pollReplyLoop: about to enter the select. -/
  | prTop (me : Bytes)
  /-- pollReplyLoop: in the select. -/
  | prWait (g : Nat) (me : Bytes)
  /-- pollReplyLoop: has received from pollCh. -/
  | prGot (me : Bytes)
  /-- pollReplyLoop: at the send to sendCh. -/
  | prSend (g : Nat) (me : Bytes)
  /-- sendLoop: about to enter the select. -/
  | slTop
  /-- sendLoop: in the select. -/
  | slWait (g : Nat)
  /-- sendLoop: has received a payload, about to call isShutdown (node.go:109-113). -/
  | slCheck (p : Payload)
  /-- sendLoop: about to write. -/
  | slWrite (p : Payload)
  /-- recvLoop: at its first statement. -/
  | rlInit
  /-- recvLoop: about to enter the select. -/
  | rlTop
  /-- recvLoop: in the select. -/
  | rlWait (g : Nat)
  /-- recvLoop: has received a payload. -/
  | rlParse (p : Payload)
  /-- reader: about to call ReadFromUDP with buffer `b`. -/
  | rdTop (b : Bytes)
  /-- reader: in ReadFromUDP on connection `k`. -/
  | rdWait (k : Nat) (b : Bytes)
  /-- reader: ReadFromUDP returned, with the number of bytes and the source, or with an error. -/
  | rdCheck (b : Bytes) (res : Option (Nat × UDPAddr))
  /-- reader: has built a payload. -/
  | rdGot (b : Bytes) (p : Payload)
  /-- reader: at the send to recvCh. -/
  | rdPush (g : Nat) (b : Bytes) (p : Payload)
  /-- handlePacket: at its first statement. -/
  | hStart (p : AnyPacket)
  /-- handlePacketPoll: about to send. -/
  | hPollTop (p : ArtPoll)
  /-- handlePacketPoll: at the send to pollCh. -/
  | hPoll (g : Nat) (p : ArtPoll)
  /-- handlePacketPollReply: about to send. -/
  | hReplyTop (p : ArtPollReply)
  /-- handlePacketPollReply: at the send to pollReplyCh. -/
  | hReply (g : Nat) (p : ArtPollReply)
  /-- pollLoop: about to send an ArtPoll. -/
  | plSendTop
  /-- pollLoop: at the send to sendCh. -/
  | plSend (g : Nat)
  /-- pollLoop: about to send to pollCh. -/
  | plPollTop
  /-- pollLoop: at the send to pollCh. -/
  | plPoll (g : Nat)
  /-- pollLoop: about to enter the select. -/
  | plTop
  /-- pollLoop: in the select on pollReplyCh of `g` and shutdownCh of `k`. -/
  | plWait (g k : Nat)
  /-- pollLoop: about to call gcNode. -/
  | plGc
  /-- pollLoop: has received a reply. -/
  | plGot (p : ArtPollReply)
  /-- dmxUpdateLoop: at its first statement. -/
  | duInit
  /-- dmxUpdateLoop: about to enter the select. -/
  | duTop
  /-- dmxUpdateLoop: in the select. -/
  | duWait (k : Nat)
  /-- dmxUpdateLoop: about to lock nodeLock. -/
  | duLock
  /-- dmxUpdateLoop: holds the lock; payloads to send for the current universe, then the universes left. -/
  | duTick (pend : List Emission) (rest : List (Address × Ref)) (now : Int)
  /-- dmxUpdateLoop: holds the lock, at the send of `e` to sendCh. -/
  | duSend (g : Nat) (e : Emission) (pend : List Emission) (rest : List (Address × Ref)) (now : Int)
  /-- A caller of SendDMXToAddress, about to lock nodeLock. -/
  | caller (dmx : Arr 512) (a : Address)
  /-- Returned. -/
  | done
  deriving DecidableEq

/-- The goroutine that calls Start, Stop and the registration functions. -/
inductive Control
  | idle
  /-- in Node.Start, at node.go:129 -/
  | listening
  /-- in Node.Stop, at node.go:101 -/
  | closing
  /-- in Node.Stop, at node.go:102 -/
  | disconnecting
  /-- in Controller.Stop, at controller.go:148 -/
  | ending
  deriving DecidableEq

/-- Which life cycle call came last. -/
inductive Phase
  | fresh
  /-- a Start has passed validation and no Stop has been called since -/
  | started
  /-- Stop has been called and has not returned -/
  | stopping
  /-- Stop has returned -/
  | stopped
  deriving DecidableEq

/-- What does not change. -/
structure Params where
  config : NodeConfig
  localIP : Bytes
  /-- Node.broadcastAddr -/
  broadcast : UDPAddr
  /-- whether this is a Controller or a plain Node -/
  controller : Bool
  /-- Controller.broadcastAddr -/
  ctrlBroadcast : UDPAddr
  maxFPS : Int

/-- The state: node.go:18-45, controller.go:82-101, the goroutines, and a record of the past. -/
structure Sys where
  callbacks : GoMap OpCode Handler
  shutdown : Bool
  /-- the channels made by every Start -/
  chans : List Chans
  /-- the channels the fields of the Node hold -/
  cur : Option Nat
  /-- every connection made, `true` while open -/
  conns : List Bool
  /-- the field conn -/
  conn : Option Nat
  control : Control
  phase : Phase
  threads : List Thread
  /-- the tickers of the Controller were made -/
  tickers : Bool
  ctrl : Ctrl
  /-- Controller.nodeLock is held -/
  lock : Bool
  /-- every Controller.shutdownCh made, `true` once closed -/
  cdown : List Bool
  /-- the field Controller.shutdownCh -/
  ccur : Option Nat
  crashed : Option Fault
  /-- the field shutdownErr is not nil -/
  shutdownErr : Bool
  /-- the results of the calls of Start so far, `true` when nil was returned -/
  results : List Bool
  /-- datagrams returned by ReadFromUDP -/
  arrived : List Payload
  /-- payloads built by the reader -/
  accepted : List Payload
  /-- payloads the reader discarded because the Node was stopped -/
  lost : List Payload
  /-- payloads that did not decode -/
  rejected : List Payload
  /-- calls of call-backs -/
  calls : List (Handler × AnyPacket)
  /-- packets without call-back -/
  dropped : List AnyPacket
  /-- datagrams written to the network -/
  wire : List Payload
  /-- ArtPoll packets pollLoop put into pollCh -/
  own : Nat
  /-- datagrams the update loop put into sendCh -/
  emitted : List Emission
  /-- operations on the controller's tables, in the order in which they got the lock -/
  hist : List Op

/-- The state after the constructor. -/
def Sys.init (P : Params) : Sys where
  callbacks := [(OpCode.opPoll, .poll), (OpCode.opPollReply, .pollReply)]
  shutdown := true
  chans := []
  cur := none
  conns := []
  conn := none
  control := .idle
  phase := .fresh
  threads := []
  tickers := false
  ctrl := Ctrl.init P.maxFPS
  lock := false
  cdown := []
  ccur := none
  crashed := none
  shutdownErr := false
  results := []
  arrived := []
  accepted := []
  lost := []
  rejected := []
  calls := []
  dropped := []
  wire := []
  own := 0
  emitted := []
  hist := []

/-- The system of a Node made by NewNode. -/
def Params.ofNode (n : NodeSetup) : Params :=
  ⟨n.config, n.localAddr.ip, n.broadcastAddr, false, n.broadcastAddr, 1000⟩

/-- The system of a Controller made by NewController. -/
def Params.ofController (c : ControllerSetup) : Params :=
  ⟨c.cNode.config, c.cNode.localAddr.ip, c.cNode.broadcastAddr, true, c.broadcastAddr, c.maxFPS⟩

/-- What the environment and the scheduler decide in one step of a goroutine. -/
inductive Choice
  /-- the communication, or the next statements -/
  | next
  /-- the case of the closed shutdown channel -/
  | down
  /-- the case of the ticker (in pollLoop: pollTicker) -/
  | tick
  /-- the case of gcTicker -/
  | gcTick
  /-- the system call returns an error -/
  | fail
  /-- ReadFromUDP returns a datagram -/
  | read (src : UDPAddr) (d : Bytes)
  /-- the clock -/
  | at (now : Int)
  /-- the clock during gcNode -/
  | clock (c : Nat → Int)
  /-- the clock and the order of the map iteration -/
  | order (l : List Address) (now : Int)

/-- The actions. -/
inductive Act
  | start
  /-- net.ListenPacket succeeds or fails -/
  | listen (ok : Bool)
  | stop
  /-- the next step of Stop -/
  | stopStep
  | register (o : OpCode) (h : Handler)
  | deregister (o : OpCode)
  /-- somebody calls SendDMXToAddress -/
  | call (dmx : Arr 512) (a : Address)
  /-- goroutine `i` does a step -/
  | run (i : Nat) (c : Choice)

/-- Goroutine `i` goes to `t`. -/
def Sys.goto (s : Sys) (i : Nat) (t : Thread) : Sys := { s with threads := s.threads.set i t }

/-- A panic ends the process. -/
def Sys.panic (s : Sys) (f : Fault) : Sys := { s with crashed := some f }

/-- A communication on the channels of generation `g`. -/
def Sys.comm (s : Sys) (g : Nat) (f : Chans → Option Chans) : Option Sys :=
  match s.chans[g]? with
  | none => none
  | some ch =>
    match f ch with
    | none => none
    | some ch => some { s with chans := s.chans.set g ch }

/-- node.go:150-155: the marshalled ArtPollReply (MarshalBinary returns no error). -/
def Params.me (P : Params) : Go Bytes := do
  let p ← artPollReplyFromConfig P.config
  pure p.marshalBinary.2.1

/-- controller.go:153-163: the marshalled ArtPoll. -/
def pollBytes : Bytes :=
  ({ ArtPoll.new with
    talkToMe := TalkToMe.withReplyOnChange 0 true
    priority := PriorityCode.dpAll } : ArtPoll).marshalBinary.2.1

/-- controller.go:188-199: the reply is not acted upon. -/
def ignored (p : ArtPollReply) : Bool :=
  let cfg := configFromArtPollReply p
  (cfg.type ≠ StyleCode.stNode ∧ cfg.type ≠ StyleCode.stController) ∨
  (cfg.type = StyleCode.stController ∧ cfg.outputPorts.length = 0)

/-- The size of the read buffer (node.go:214). -/
def bufSize : Nat := 4096

/-- ReadFromUDP: the datagram, cut to the size of the buffer, overwrites the front of the buffer. -/
def readInto (b d : Bytes) : Bytes × Nat := (copyInto b d, min b.length d.length)

/-- node.go:237-242: the payload for the result of ReadFromUDP. -/
def payloadOf (b : Bytes) (res : Option (Nat × UDPAddr)) : Option Payload :=
  res.map fun (n, src) => ⟨src, copyInto (List.replicate n 0) b⟩

/-- One step of goroutine `i`, which is at `t`. -/
def Sys.step (P : Params) (s : Sys) (i : Nat) (t : Thread) (c : Choice) : Option Sys :=
  match t, c with
  -- node.go:146-155
  | .prInit, .next =>
    match P.me with
    | .error f => some (s.panic f)
    | .ok me => some (s.goto i (.prTop me))
  -- node.go:158-159; `timer.C` is a nil channel
  | .prTop me, .next => s.cur.map fun g => s.goto i (.prWait g me)
  -- node.go:164
  | .prWait g me, .next =>
    match s.chans[g]? with
    | none => none
    | some ch =>
      match ch.poll with
      | [] => none
      | _ :: q => some ({ s with chans := s.chans.set g { ch with poll := q } }.goto i (.prGot me))
  -- node.go:175-176
  | .prWait g _, .down =>
    match s.chans[g]? with
    | none => none
    | some ch => if ch.down then some (s.goto i .done) else none
  -- node.go:168
  | .prGot me, .next => s.cur.map fun g => s.goto i (.prSend g me)
  -- node.go:168-171
  | .prSend g me, .next => (s.comm g (Chans.pushSend (Payload.mk P.broadcast me))).map (·.goto i (.prTop me))
  -- node.go:184-185
  | .slTop, .next => s.cur.map fun g => s.goto i (.slWait g)
  -- node.go:186-187
  | .slWait g, .down =>
    match s.chans[g]? with
    | none => none
    | some ch => if ch.down then some (s.goto i .done) else none
  -- node.go:189
  | .slWait g, .next =>
    match s.chans[g]? with
    | none => none
    | some ch =>
      match ch.send with
      | [] => none
      | p :: q =>
        some ({ s with chans := s.chans.set g { ch with send := q, taken := ch.taken ++ [p] } }.goto i
          (.slCheck p))
  -- node.go:190-192
  | .slCheck p, .next => if s.shutdown then some (s.goto i .done) else some (s.goto i (.slWrite p))
  -- node.go:194-199: the write succeeds on an open connection only
  | .slWrite p, .next =>
    match s.conn with
    | none => none
    | some k =>
      if s.conns[k]? = some true then some ({ s with wire := s.wire ++ [p] }.goto i .slTop) else none
  -- node.go:194-198
  | .slWrite _, .fail => some (s.goto i .slTop)
  -- node.go:213-214
  | .rlInit, .next =>
    some { s.goto i .rlTop with threads := (s.goto i .rlTop).threads ++ [.rdTop (List.replicate bufSize 0)] }
  -- node.go:248-249
  | .rlTop, .next => s.cur.map fun g => s.goto i (.rlWait g)
  -- node.go:250
  | .rlWait g, .next =>
    match s.chans[g]? with
    | none => none
    | some ch =>
      match ch.recv with
      | [] => none
      | p :: q => some ({ s with chans := s.chans.set g { ch with recv := q } }.goto i (.rlParse p))
  -- node.go:267-268
  | .rlWait g, .down =>
    match s.chans[g]? with
    | none => none
    | some ch => if ch.down then some (s.goto i .done) else none
  -- node.go:251-265. A packet returned without error is not nil.
  | .rlParse p, .next =>
    match unmarshal p.data with
    | .error f => some (s.panic f)
    | .ok (some q, none) =>
      some { s.goto i .rlTop with threads := (s.goto i .rlTop).threads ++ [.hStart q] }
    | .ok _ => some ({ s with rejected := s.rejected ++ [p] }.goto i .rlTop)
  -- node.go:216
  | .rdTop b, .next => s.conn.map fun k => s.goto i (.rdWait k b)
  -- node.go:216
  | .rdWait k b, .read src d =>
    if s.conns[k]? = some true then
      some ({ s with arrived := s.arrived ++ [Payload.mk src d] }.goto i
        (.rdCheck (readInto b d).1 (some ((readInto b d).2, src))))
    else none
  -- node.go:216: an error comes with a nil address
  | .rdWait _ b, .fail => some (s.goto i (.rdCheck b none))
  -- node.go:217-243
  | .rdCheck b res, .next =>
    if s.shutdown then some ({ s with lost := s.lost ++ (payloadOf b res).toList }.goto i .done)
    else match res with
    | none => some (s.panic .nilDereference)
    | some (n, src) =>
      if ipEqual P.localIP src.ip then some (s.goto i (.rdTop b))
      else
        let p : Payload := ⟨src, copyInto (List.replicate n 0) b⟩
        some ({ s with accepted := s.accepted ++ [p] }.goto i (.rdGot b p))
  -- node.go:243
  | .rdGot b p, .next => s.cur.map fun g => s.goto i (.rdPush g b p)
  -- node.go:243
  | .rdPush g b p, .next => (s.comm g (Chans.pushRecv p)).map (·.goto i (.rdTop b))
  -- node.go:274-305: handlePacket up to the send of the built-in call-backs
  | .hStart p, .next =>
    match s.callbacks.get p.getOpCode with
    | none => some ({ s with dropped := s.dropped ++ [p] }.goto i .done)
    -- a call of a nil function panics
    | some .nil => some (s.panic .nilDereference)
    | some h =>
      let s := { s with calls := s.calls ++ [(h, p)] }
      match h, p with
      | .poll, .poll q => some (s.goto i (.hPollTop q))
      | .pollReply, .pollReply q =>
        if P.config.type = StyleCode.stController then some (s.goto i (.hReplyTop q))
        else some (s.goto i .done)
      | _, _ => some (s.goto i .done)
  -- node.go:291
  | .hPollTop p, .next => s.cur.map fun g => s.goto i (.hPoll g p)
  | .hPoll g p, .next => (s.comm g (Chans.pushPoll p)).map (·.goto i .done)
  -- node.go:303
  | .hReplyTop p, .next => s.cur.map fun g => s.goto i (.hReply g p)
  | .hReply g p, .next => (s.comm g (Chans.pushReply p)).map (·.goto i .done)
  -- controller.go:152-169, 177-180
  | .plSendTop, .next => s.cur.map fun g => s.goto i (.plSend g)
  | .plSend g, .next => (s.comm g (Chans.pushSend (Payload.mk P.ctrlBroadcast pollBytes))).map (·.goto i .plPollTop)
  -- controller.go:170, 181
  | .plPollTop, .next => s.cur.map fun g => s.goto i (.plPoll g)
  | .plPoll g, .next =>
    (s.comm g (Chans.pushPoll ArtPoll.new)).map fun s => { s with own := s.own + 1 }.goto i .plTop
  -- controller.go:173-174
  | .plTop, .next =>
    match s.cur, s.ccur with
    | some g, some k => some (s.goto i (.plWait g k))
    | _, _ => none
  -- controller.go:175
  | .plWait _ _, .tick => some (s.goto i .plSendTop)
  -- controller.go:183
  | .plWait _ _, .gcTick => some (s.goto i .plGc)
  -- controller.go:187
  | .plWait g _, .next =>
    match s.chans[g]? with
    | none => none
    | some ch =>
      match ch.pollReply with
      | [] => none
      | p :: q => some ({ s with chans := s.chans.set g { ch with pollReply := q } }.goto i (.plGot p))
  -- controller.go:206-207
  | .plWait _ k, .down => if s.cdown[k]? = some true then some (s.goto i .done) else none
  -- controller.go:185
  | .plGc, .clock c =>
    if s.lock then none
    else some ({ s with ctrl := s.ctrl.gcNode c, hist := s.hist ++ [Op.gc c] }.goto i .plTop)
  -- controller.go:188-204
  | .plGot p, .at now =>
    if ignored p then some ({ s with hist := s.hist ++ [Op.reply p now] }.goto i .plTop)
    else if s.lock then none
    else some ({ s with
      ctrl := s.ctrl.pollReply p now
      hist := s.hist ++ [Op.reply p now] }.goto i .plTop)
  -- controller.go:235-239
  | .duInit, .next =>
    match tickerPeriod P.maxFPS with
    | .error f => some (s.panic f)
    | .ok _ => some (s.goto i .duTop)
  -- controller.go:258-259
  | .duTop, .next => s.ccur.map fun k => s.goto i (.duWait k)
  -- controller.go:260
  | .duWait _, .tick => some (s.goto i .duLock)
  -- controller.go:286-287
  | .duWait k, .down => if s.cdown[k]? = some true then some (s.goto i .done) else none
  -- controller.go:261-264: the loop ranges over the map as it is now
  | .duLock, .order l now =>
    if s.lock then none
    else if l.isPerm s.ctrl.output.keys then
      some ({ s with lock := true, hist := s.hist ++ [Op.tick l now] }.goto i
        (.duTick [] (l.filterMap fun a => (s.ctrl.output.get a).map fun r => (a, r)) now))
    else none
  -- controller.go:284
  | .duTick [] [] _, .next => some ({ s with lock := false }.goto i .duTop)
  -- controller.go:265-282 up to the send
  | .duTick [] ((a, r) :: rest) now, .next =>
    some ({ s with ctrl := (s.ctrl.tickAt a r now).1 }.goto i
      (.duTick (s.ctrl.tickAt a r now).2 rest now))
  -- controller.go:250
  | .duTick (e :: pend) rest now, .next => s.cur.map fun g => s.goto i (.duSend g e pend rest now)
  -- controller.go:250-253
  | .duSend g e pend rest now, .next =>
    (s.comm g (Chans.pushSend (Payload.mk e.address e.data))).map fun s =>
      { s with emitted := s.emitted ++ [e] }.goto i (.duTick pend rest now)
  -- controller.go:214-232
  | .caller dmx a, .next =>
    if s.lock then none
    else some ({ s with ctrl := s.ctrl.sendDMX dmx a, hist := s.hist ++ [Op.send dmx a] }.goto i .done)
  | _, _ => none

/-- controller.go:120-125: what Controller.Start does before it starts the Node. -/
def Sys.resetTables (s : Sys) : Sys :=
  { s with
    ctrl := s.ctrl.restart
    hist := s.hist ++ [Op.restart]
    cdown := s.cdown ++ [false]
    ccur := some s.cdown.length }

/-- node.go:122-127 -/
def Sys.makeChannels (s : Sys) : Sys :=
  { s with
    chans := s.chans ++ [Chans.make]
    cur := some s.chans.length
    shutdown := false
    control := .listening
    phase := .started }

/-- node.go:102-106: the connections after `n.conn.Close()`. -/
def Sys.closeConn (s : Sys) : List Bool :=
  match s.conn with
  | none => s.conns
  | some k => s.conns.set k false

/-- The goroutines started by Start (node.go:137-139 and controller.go:133-134). -/
def Params.goroutines (P : Params) : List Thread :=
  [.prInit, .rlInit, .slTop] ++ if P.controller then [.plSendTop, .duInit] else []

/-- The state after an action; `none` when it is not possible. -/
def Sys.exec (P : Params) (s : Sys) (a : Act) : Option Sys :=
  if s.crashed.isSome then none else
  match a with
  -- node.go:116-127, controller.go:120-126
  | .start =>
    if s.control ≠ .idle then none else
    let s := if P.controller then s.resetTables else s
    match P.config.validate with
    | .error f => some (s.panic f)
    | .ok (some _) => some { s with results := s.results ++ [false] }
    | .ok none => some s.makeChannels
  -- node.go:129-141, controller.go:126-135
  | .listen ok =>
    if s.control ≠ .listening then none
    else if ok then some { s with
      conns := s.conns ++ [true]
      conn := some s.conns.length
      tickers := s.tickers || P.controller
      threads := s.threads ++ P.goroutines
      results := s.results ++ [!(P.controller && s.shutdownErr)]
      control := .idle }
    else some { s with control := .idle, shutdownErr := true, results := s.results ++ [false] }
  -- node.go:97-100, controller.go:139-142
  | .stop =>
    if s.control ≠ .idle then none
    else if P.controller && !s.tickers then some (s.panic .nilDereference)
    else some { s with shutdown := true, control := .closing, phase := .stopping }
  | .stopStep =>
    match s.control with
    -- node.go:101
    | .closing =>
      match s.cur with
      | none => some (s.panic .closeOfNilChannel)
      | some g =>
        match s.chans[g]? with
        | none => some (s.panic .closeOfNilChannel)
        | some ch =>
          if ch.down then some (s.panic .closeOfClosedChannel)
          else some { s with chans := s.chans.set g { ch with down := true }, control := .disconnecting }
    -- node.go:102-106: closing a closed connection returns an error, which is logged
    | .disconnecting =>
      if P.controller then some { s with conns := s.closeConn, control := .ending }
      else some { s with conns := s.closeConn, control := .idle, phase := .stopped }
    -- controller.go:144-148; the receive does not block, the channel is closed
    | .ending =>
      match s.ccur with
      | none => some (s.panic .closeOfNilChannel)
      | some k =>
        if s.cdown[k]? = some true then some (s.panic .closeOfClosedChannel)
        else some { s with cdown := s.cdown.set k true, control := .idle, phase := .stopped }
    | _ => none
  -- node.go:311-318
  | .register o h =>
    if s.control ≠ .idle then none
    else if !s.shutdown then some s
    else some { s with callbacks := s.callbacks.set o h }
  -- node.go:323-330
  | .deregister o =>
    if s.control ≠ .idle then none
    else if !s.shutdown then some s
    else some { s with callbacks := s.callbacks.del o }
  | .call dmx a => if P.controller then some { s with threads := s.threads ++ [.caller dmx a] } else none
  | .run i c =>
    match s.threads[i]? with
    | none => none
    | some t => s.step P i t c

/-- The state after a list of actions. -/
def Sys.execs (P : Params) (s : Sys) : List Act → Option Sys
  | [] => some s
  | a :: as =>
    match s.exec P a with
    | none => none
    | some s => s.execs P as

/-- The states that a system can reach. -/
def Reach (P : Params) (s : Sys) : Prop := ∃ as, (Sys.init P).execs P as = some s

end Verif.Conc
