import Verif.Spec.Fair
import Verif.Spec.Controller
/-
What the goroutines that are left when Stop has returned must still send, and the room there is for it.
-/
namespace Verif.Conc
open Packet Code Artnet Spec

/-- The universes of a tick whose buffer is due. -/
def dueOf (c : Ctrl) (rest : List (Address × Ref)) (now : Int) : Nat :=
  (rest.filter fun x => decide (Due (bufferAt (c.heap x.2) x.1) now c.maxFPS)).length

/-- How many datagrams the goroutine puts into sendCh before it is in a select again or returns. -/
def mustSend (c : Ctrl) : Thread → Nat
  | .prGot _ | .prSend _ _ | .plSendTop | .plSend _ => 1
  | .duTick pend rest now => pend.length + dueOf c rest now
  | .duSend _ _ pend rest now => pend.length + dueOf c rest now + 1
  | _ => 0

/-- The packet is passed on to pollCh. -/
def passesPoll (cb : GoMap OpCode Handler) : Option AnyPacket → Nat
  | some (.poll q) => if cb.get (AnyPacket.poll q).getOpCode = some .poll then 1 else 0
  | _ => 0

/-- The packet is passed on to pollReplyCh. -/
def passesReply (P : Params) (cb : GoMap OpCode Handler) : Option AnyPacket → Nat
  | some (.pollReply q) => if P.config.type = StyleCode.stController ∧ cb.get (AnyPacket.pollReply q).getOpCode = some .pollReply then 1 else 0
  | _ => 0

/-- How many items the goroutine, and the handler it starts, put into pollCh. -/
def mustPoll (cb : GoMap OpCode Handler) : Thread → Nat
  | .plSendTop | .plSend _ | .plPollTop | .plPoll _ | .hPollTop _ | .hPoll _ _ => 1
  | .hStart p => passesPoll cb (some p)
  | .rlParse p => passesPoll cb (decode p)
  | _ => 0

/-- How many items the goroutine, and the handler it starts, put into pollReplyCh. -/
def mustReply (P : Params) (cb : GoMap OpCode Handler) : Thread → Nat
  | .hReplyTop _ | .hReply _ _ => 1
  | .hStart p => passesReply P cb (some p)
  | .rlParse p => passesReply P cb (decode p)
  | _ => 0

/-- How many items the goroutine puts into recvCh. -/
def mustRecv : Thread → Nat
  | .rdGot _ _ | .rdPush _ _ _ => 1
  | _ => 0

/-- After Stop a sendLoop takes at most one datagram more, none if it has taken it already. -/
def mayTake : Thread → Nat
  | .slTop | .slWait _ | .slWrite _ => 1
  | _ => 0

/-- The goroutine is a recvLoop. -/
def isRecvLoop : Thread → Nat
  | .rlInit | .rlTop | .rlWait _ | .rlParse _ => 1
  | _ => 0

/-- The goroutine is a pollReplyLoop. -/
def isReplyLoop : Thread → Nat
  | .prInit | .prTop _ | .prWait _ _ | .prGot _ | .prSend _ _ => 1
  | _ => 0

/-- The goroutine is a pollLoop. -/
def isPollLoop : Thread → Nat
  | .plSendTop | .plSend _ | .plPollTop | .plPoll _ | .plTop | .plWait _ _ | .plGc | .plGot _ => 1
  | _ => 0

/-- The goroutines for which `f` counts. -/
def Sys.sum (s : Sys) (f : Thread → Nat) : Nat := (s.threads.map f).sum

/-- What recvCh holds together with what the reader has yet to put into it. -/
def Sys.recvLoad (s : Sys) : Nat := (s.newest Chans.recv).length + s.sum mustRecv

/-- The packet that recvLoop must take to make room for the reader. -/
def Sys.relief (s : Sys) : Option AnyPacket :=
  if s.recvLoad ≤ 10 then none else (s.newest Chans.recv).head?.bind decode

/-- What pollCh holds together with what must be put into it. -/
def Sys.pollLoad (s : Sys) : Nat :=
  (s.newest Chans.poll).length + s.sum (mustPoll s.callbacks) + passesPoll s.callbacks s.relief

/-- What pollReplyCh holds together with what must be put into it. -/
def Sys.replyLoad (P : Params) (s : Sys) : Nat :=
  (s.newest Chans.pollReply).length + s.sum (mustReply P s.callbacks) + passesReply P s.callbacks s.relief

/-- What sendCh holds together with what must be put into it, without the answers to polls still in pollCh. -/
def Sys.sendLoad (s : Sys) : Nat := (s.newest Chans.send).length + s.sum (mustSend s.ctrl)

/-- There is room for everything that must be sent. Each queue holds ten items. A recvLoop makes room in recvCh, a pollLoop in
pollReplyCh, and a pollReplyLoop in pollCh if there is room in sendCh for as many answers. The sendLoop makes room for one. -/
structure Settles (P : Params) (s : Sys) : Prop where
  recv : s.recvLoad ≤ 10 ∨ 1 ≤ s.sum isRecvLoop
  reply : s.replyLoad P ≤ 10 ∨ 1 ≤ s.sum isPollLoop
  poll : s.pollLoad ≤ 10 ∨ 1 ≤ s.sum isReplyLoop
  send : s.sendLoad + (s.pollLoad - 10) ≤ 10 + s.sum mayTake

/-- What the update loop must still send before it unlocks. -/
def leftInTick (c : Ctrl) : Thread → Nat
  | .duTick pend rest now => pend.length + dueOf c rest now
  | .duSend _ _ pend rest now => pend.length + dueOf c rest now + 1
  | _ => 0

/-- The lock is free, or there is room in sendCh for the rest of the tick. -/
def Unlocks (s : Sys) : Prop :=
  s.lock = false ∨ (s.newest Chans.send).length + s.sum (leftInTick s.ctrl) ≤ 10 + s.sum mayTake

instance (s : Sys) : Decidable (Unlocks s) := inferInstanceAs (Decidable (_ ∨ _))

instance (P : Params) (s : Sys) : Decidable (Settles P s) :=
  decidable_of_iff ((s.recvLoad ≤ 10 ∨ 1 ≤ s.sum isRecvLoop) ∧ (s.replyLoad P ≤ 10 ∨ 1 ≤ s.sum isPollLoop) ∧
      (s.pollLoad ≤ 10 ∨ 1 ≤ s.sum isReplyLoop) ∧ s.sendLoad + (s.pollLoad - 10) ≤ 10 + s.sum mayTake)
    ⟨fun h => ⟨h.1, h.2.1, h.2.2.1, h.2.2.2⟩, fun h => ⟨h.recv, h.reply, h.poll, h.send⟩⟩

end Verif.Conc
