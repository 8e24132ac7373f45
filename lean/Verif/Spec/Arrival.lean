import Verif.Spec.Fair
/-
The order in which received datagrams are handled.
-/
namespace Verif.Conc
open Packet Code Artnet Spec

/-- The payload that recvLoop is parsing. -/
def Thread.parsing : Thread → List Payload
  | .rlParse p => [p]
  | _ => []

/-- The payload that the reader carries to recvCh. -/
def Thread.bringing : Thread → List Payload
  | .rdGot _ p | .rdPush _ _ p => [p]
  | _ => []

/-- The payloads of the session between the reader and the parser, the one that is furthest on first. -/
def Sys.line (s : Sys) : List Payload :=
  s.threads.flatMap Thread.parsing ++ s.newest Chans.recv ++ s.threads.flatMap Thread.bringing

/-- The states reached when Start waits for the goroutines of the session before and every handlePacket has looked
for its call-back before recvLoop starts the next one. -/
inductive OneByOne (P : Params) : Sys → Prop
  | init : OneByOne P (Sys.init P)
  | step {s s' : Sys} {a : Act} (h : OneByOne P s) (hx : s.exec P a = some s')
      (ht : a = .start → ∀ t ∈ s.threads, t.idle = true) (h1 : s'.handling.length ≤ 1) : OneByOne P s'

/-- The ArtPollReply among the packets. -/
def asReply : AnyPacket → Option ArtPollReply
  | .pollReply p => some p
  | _ => none

/-- The ArtPollReply that a datagram carries. -/
def announcement (p : Payload) : Option ArtPollReply := (decode p).bind asReply

/-- The announcement that an operation of pollLoop processes. -/
def Op.announced : Op → Option ArtPollReply
  | .reply p _ => some p
  | _ => none

/-- The announcement that a goroutine handlePacket is to put into pollReplyCh. -/
def Thread.announcing : Thread → List ArtPollReply
  | .hStart (.pollReply p) | .hReplyTop p | .hReply _ p => [p]
  | _ => []

/-- The announcement that pollLoop has taken and not processed yet. -/
def Thread.learning : Thread → List ArtPollReply
  | .plGot p => [p]
  | _ => []

/-- The announcements of the session on their way to pollLoop, the one that is furthest on first. -/
def Sys.news (s : Sys) : List ArtPollReply :=
  s.threads.flatMap Thread.learning ++ s.newest Chans.pollReply ++ s.threads.flatMap Thread.announcing ++
    s.line.filterMap announcement

/-- The states reached when Start waits for the goroutines of the session before and every handlePacket of an
announcement has put it into pollReplyCh before recvLoop starts the next one. -/
inductive InTurn (P : Params) : Sys → Prop
  | init : InTurn P (Sys.init P)
  | step {s s' : Sys} {a : Act} (h : InTurn P s) (hx : s.exec P a = some s')
      (ht : a = .start → ∀ t ∈ s.threads, t.idle = true)
      (h1 : (s'.threads.flatMap Thread.announcing).length ≤ 1) : InTurn P s'

end Verif.Conc
