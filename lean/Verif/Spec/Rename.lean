import Verif.Spec.Traffic
import Verif.Spec.Wire
import Verif.Spec.Config
import Verif.Lemmas.Config
/-
When two systems are of the same kind, and what the state of the one looks like in the other.
-/
namespace Verif.Conc
open Spec Packet Code Artnet

/-- Both are Nodes or both are Controllers, both have the style StController or neither, and both can be started or
neither. Names, addresses, ports, status bytes and the rest of the configuration may differ. -/
structure SameKind (P Q : Params) : Prop where
  controller : P.controller = Q.controller
  style : P.config.type = StyleCode.stController ↔ Q.config.type = StyleCode.stController
  valid : ValidConfig P.config ↔ ValidConfig Q.config

/-- The datagram that the system `Q` sends where another one sends `p`: its own announcement in place of an announcement,
to its own broadcast address; an ArtPoll to the broadcast address of its Controller; everything else as it is. -/
def Params.redraft (Q : Params) (p : Payload) : Payload :=
  if isReply p then ⟨Q.broadcast, pollReplyImage (announced Q.config)⟩
  else if isArtPoll p then ⟨Q.ctrlBroadcast, p.data⟩
  else p

/-- The goroutine in the system `Q`. -/
def Thread.as (Q : Params) : Thread → Thread
  | .prTop _ => .prTop (pollReplyImage (announced Q.config))
  | .prWait g _ => .prWait g (pollReplyImage (announced Q.config))
  | .prGot _ => .prGot (pollReplyImage (announced Q.config))
  | .prSend g _ => .prSend g (pollReplyImage (announced Q.config))
  | .slCheck p => .slCheck (Q.redraft p)
  | .slWrite p => .slWrite (Q.redraft p)
  | t => t

/-- The channels in the system `Q`: only sendCh differs. -/
def Chans.as (Q : Params) (c : Chans) : Chans :=
  { c with send := c.send.map Q.redraft, enq := c.enq.map Q.redraft, taken := c.taken.map Q.redraft }

/-- The state in the system `Q`. -/
def Sys.as (Q : Params) (s : Sys) : Sys :=
  { s with
    chans := s.chans.map (Chans.as Q)
    threads := s.threads.map (Thread.as Q)
    wire := s.wire.map Q.redraft
    ctrl := { s.ctrl with maxFPS := Q.maxFPS } }

/-- For the datagrams that are read, both systems agree on whether they come from their own address. -/
def hearAlike (P Q : Params) (as : List Act) : Prop :=
  ∀ i src d, Act.run i (.read src d) ∈ as → ipEqual P.localIP src.ip = ipEqual Q.localIP src.ip

end Verif.Conc
