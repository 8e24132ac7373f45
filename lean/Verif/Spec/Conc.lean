import Verif.Model.Conc
import Verif.Spec.Bytes
/-
Definitions used by the statements about concurrent executions.
-/
namespace Verif.Conc
open Packet Code Artnet Spec

/-- The packet a datagram carries. -/
def decode (p : Payload) : Option AnyPacket :=
  match unmarshal p.data with
  | .ok (some q, none) => some q
  | _ => none

/-- No call-back that is registered is a nil function. -/
def Sys.callable (s : Sys) : Prop := ∀ o, s.callbacks.get o ≠ some .nil

/-- What the reader keeps of a datagram: at most 4096 bytes. -/
def trunc (p : Payload) : Payload := ⟨p.address, p.data.take 4096⟩

/-- Two ways to write the same address: the same bytes, or a 4-byte address and its IPv4-mapped form. -/
def SameAddress (a b : Bytes) : Prop :=
  a = b ∨ a.length = 4 ∧ b = [0, 0, 0, 0, 0, 0, 0, 0, 0, 0, 0xff, 0xff] ++ a ∨
  b.length = 4 ∧ a = [0, 0, 0, 0, 0, 0, 0, 0, 0, 0, 0xff, 0xff] ++ b

/-- The datagram does not come from the node's own address. -/
def fromOther (P : Params) (p : Payload) : Bool := !ipEqual P.localIP p.address.ip

/-- A datagram that a goroutine has read and not yet looked at. -/
def Thread.checking : Thread → List Payload
  | .rdCheck b (some (n, src)) => [⟨src, copyInto (List.replicate n 0) b⟩]
  | _ => []

/-- A payload that a goroutine carries to or from recvCh. -/
def Thread.carried : Thread → List Payload
  | .rdGot _ p | .rdPush _ _ p | .rlParse p => [p]
  | _ => []

/-- A packet for which handlePacket was started and has not looked for the call-back yet. -/
def Thread.handling : Thread → List AnyPacket
  | .hStart p => [p]
  | _ => []

/-- Payloads that sendLoop has taken and not yet written. -/
def Thread.writing : Thread → List Payload
  | .slCheck p | .slWrite p => [p]
  | _ => []

/-- Payloads on their way from the reader to the parser. -/
def Sys.queued (s : Sys) : List Payload :=
  s.threads.flatMap Thread.carried ++ s.chans.flatMap Chans.recv

/-- Packets whose call-back is about to be looked up. -/
def Sys.handling (s : Sys) : List AnyPacket := s.threads.flatMap Thread.handling

/-- Datagrams read and not yet looked at. -/
def Sys.checking (s : Sys) : List Payload := s.threads.flatMap Thread.checking

/-- The opcode of an ArtPollReply, low byte first. -/
def isReply (p : Payload) : Bool := byteAt p.data 8 == 0x00 && byteAt p.data 9 == 0x21

/-- Calls of the built-in call-back for ArtPoll. -/
def isPollCall : Handler × AnyPacket → Bool
  | (.poll, .poll _) => true
  | _ => false

/-- The items that a goroutine has yet to put into a queue, or will when it goes on without waiting. -/
def flight : Thread → Nat
  | .rdGot _ _ | .rdPush _ _ _ | .rlParse _ | .hStart _ | .hPollTop _ | .hPoll _ _ | .hReplyTop _ | .hReply _ _ => 1
  | .prGot _ | .prSend _ _ | .plPollTop | .plPoll _ => 1
  | .plSendTop | .plSend _ => 2
  | .duTick pend rest _ => pend.length + rest.length
  | .duSend _ _ pend rest _ => 1 + pend.length + rest.length
  | _ => 0

/-- The items in the four queues of a Start. -/
def Chans.items (c : Chans) : Nat := c.poll.length + c.send.length + c.recv.length + c.pollReply.length

/-- All the items under way inside the node. -/
def Sys.inFlight (s : Sys) : Nat := (s.threads.map flight).sum + (s.chans.map Chans.items).sum

/-- The items under way inside the node, without those left in the queues of earlier Starts. -/
def Sys.underWay (s : Sys) : Nat :=
  (s.threads.map flight).sum + match s.chans.getLast? with
    | some ch => ch.items
    | none => 0

/-- The goroutine has returned, or is in a select or in a read, where nothing needs to come. -/
def Thread.resting : Thread → Bool
  | .prWait _ _ | .slWait _ | .rlWait _ | .rdWait _ _ | .plWait _ _ | .duWait _ | .done => true
  | _ => false

/-- A step of a goroutine, other than a ticker firing. -/
def Act.quiet : Act → Bool
  | .run _ .tick | .run _ .gcTick => false
  | .run _ _ => true
  | _ => false

/-- The goroutine has returned, or is one of the user's in a call of SendDMXToAddress. -/
def Thread.idle : Thread → Bool
  | .done | .caller _ _ => true
  | _ => false

/-- The states reached by executions in which Start is only called when the goroutines of earlier sessions
have returned. -/
inductive TidyReach (P : Params) : Sys → Prop
  | init : TidyReach P (Sys.init P)
  | step {s s' : Sys} {a : Act} (h : TidyReach P s) (hx : s.exec P a = some s')
      (ht : a = .start → ∀ t ∈ s.threads, t.idle = true) : TidyReach P s'

/-- A session is on: Start has been called after the last Stop, and the connection it made is open. -/
def Sys.on (s : Sys) : Prop := s.phase = .started ∧ s.conns.getLast? = some true

end Verif.Conc
