import Verif.Model.Conc
/-
The log entries of node.go and controller.go: which step of Model/Conc.lean writes which entry. The texts of addresses, errors and
packets are not modelled, the values are; the fields that every entry carries are in Model/Log.lean.

Four entries are missing, because the code never gets there: node.go:153 and controller.go:161 (MarshalBinary returns no error),
controller.go:203 (updateNode returns no error), and node.go:232 (an error of ReadFromUDP comes with a nil address, and the line
before panics).
-/
namespace Verif.Conc
open Packet Code Artnet

/-- A log entry. -/
inductive Line
  /-- node.go:120 -/
  | started (ip : Bytes) (type : StyleCode)
  /-- node.go:132 -/
  | listenFailed
  /-- node.go:104 -/
  | closeFailed
  /-- node.go:166 -/
  | replying
  /-- node.go:196 -/
  | writeFailed
  /-- node.go:199 -/
  | sent (dst : UDPAddr) (bytes : Nat)
  /-- node.go:236 -/
  | received (src : UDPAddr) (bytes : Nat)
  /-- node.go:253-256 -/
  | unparsed (src data : Bytes) (err : Err)
  /-- node.go:277 -/
  | unhandled (p : AnyPacket)
  /-- node.go:287, 299 -/
  | unknownType (p : AnyPacket)
  /-- node.go:313, 325 -/
  | registration (o : OpCode)
  /-- controller.go:215 -/
  | call (a : Address)
  /-- controller.go:224 -/
  | noNode (a : Address)
  /-- controller.go:229 -/
  | noBuffer (a : Address)
  /-- controller.go:272, 279 -/
  | noData (a : Address)
  /-- controller.go:302 -/
  | updated (name ip : Bytes)
  /-- controller.go:330 -/
  | added (name ip : Bytes)
  /-- controller.go:387 -/
  | stale (name ip : Bytes)
  deriving DecidableEq, Repr

/-- controller.go:375-401 from the label `start` on. -/
def gcLines (c : Ctrl) (clock : Nat → Int) (k : Nat) : List Line :=
  match h : gcFind c.heap clock c.nodes k with
  | (none, _) => []
  | (some i, k) =>
    let r := c.nodes[i]'(gcFind_lt c.heap clock c.nodes _ i (by rw [h]))
    .stale (c.heap r).node.name (c.heap r).node.ip :: gcLines { c with
      output := delAll c.output (c.heap r).node.outputs
      input := delAll c.input (c.heap r).node.inputs
      nodes := c.nodes.eraseIdx i } clock k
termination_by c.nodes.length
decreasing_by
  have := gcFind_lt c.heap clock c.nodes _ i (by rw [h])
  simp only [List.length_eraseIdx, this, if_true]
  omega

/-- controller.go:188-204, 295-349 -/
def replyLines (c : Ctrl) (p : ArtPollReply) : List Line :=
  if ignored p then []
  else
    let cfg := configFromArtPollReply p
    match c.nodes.find? (fun r => cfg.ip == (c.heap r).node.ip) with
    | some _ => [.updated cfg.name cfg.ip]
    | none => [.added cfg.name cfg.ip]

/-- controller.go:217-232 -/
def sendLines (c : Ctrl) (dmx : Arr 512) (a : Address) : List Line :=
  match c.output.get a with
  | none => [.noNode a]
  | some r => if ((c.heap r).setDMXBuffer dmx a).2 then [] else [.noBuffer a]

/-- controller.go:265-281 -/
def tickLines (c : Ctrl) (a : Address) (r : Ref) (now : Int) : List Line :=
  let c := c.ensureBuffer a r
  let buf := ((c.heap r).dmxBuffer.get a).getD .zero
  let (c, _, ok) := if buf.stale ∧ buf.lastUpdate < now - c.maxFPS then c.update r a now else (c, [], true)
  if ok then
    let buf := ((c.heap r).dmxBuffer.get a).getD .zero
    if buf.lastUpdate < now - forceUpdate then
      if (c.update r a now).2.2 then [] else [.noData a]
    else []
  else [.noData a]

/-- What goroutine `t` logs in a step of `Sys.step`. -/
def Sys.stepLines (P : Params) (s : Sys) (t : Thread) (c : Choice) : List Line :=
  match t, c with
  | .prGot _, .next => [.replying]
  | .slWrite p, .next => [.sent p.address p.data.length]
  | .slWrite _, .fail => [.writeFailed]
  | .rdCheck _ (some (n, src)), .next =>
    if s.shutdown then [] else if ipEqual P.localIP src.ip then [] else [.received src n]
  | .rlParse p, .next =>
    match unmarshal p.data with
    | .ok (_, some e) => [.unparsed p.address.ip p.data e]
    | _ => []
  | .hStart p, .next =>
    match s.callbacks.get p.getOpCode with
    | none => [.unhandled p]
    | some .poll =>
      match p with
      | .poll _ => []
      | _ => [.unknownType p]
    | some .pollReply =>
      if P.config.type = StyleCode.stController then
        match p with
        | .pollReply _ => []
        | _ => [.unknownType p]
      else []
    | some _ => []
  | .plGc, .clock c => gcLines s.ctrl c 0
  | .plGot p, .at _ => replyLines s.ctrl p
  | .duTick [] ((a, r) :: _) now, .next => tickLines s.ctrl a r now
  | .caller dmx a, .next => sendLines s.ctrl dmx a
  | _, _ => []

/-- What is logged in an action of `Sys.exec`. -/
def Sys.lines (P : Params) (s : Sys) : Act → List Line
  | .start =>
    match P.config.validate with
    | .ok none => [.started P.config.ip P.config.type]
    | _ => []
  | .listen ok => if ok then [] else [.listenFailed]
  | .stopStep =>
    match s.control, s.conn with
    | .disconnecting, some k => if s.conns[k]? = some true then [] else [.closeFailed]
    | _, _ => []
  | .register o _ => if s.shutdown then [] else [.registration o]
  | .deregister o => if s.shutdown then [] else [.registration o]
  | .call _ a => [.call a]
  | .run i c =>
    match s.threads[i]? with
    | none => []
    | some t => s.stepLines P t c
  | _ => []

/-- The log of an execution. -/
def Sys.log (P : Params) (s : Sys) : List Act → List Line
  | [] => []
  | a :: as =>
    match s.exec P a with
    | none => []
    | some s' => s.lines P a ++ s'.log P as

end Verif.Conc
