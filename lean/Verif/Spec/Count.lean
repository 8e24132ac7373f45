import Verif.Spec.Conc
/-
Definitions for the number of goroutines.
-/
namespace Verif.Conc
open Packet Code Artnet

/-- The goroutine is one of the loops that Start begins, or the reader that recvLoop begins. -/
def Thread.isLoop : Thread → Bool
  | .hStart _ | .hPollTop _ | .hPoll _ _ | .hReplyTop _ | .hReply _ _ | .caller _ _ | .done => false
  | _ => true

/-- The goroutine was begun for a packet (node.go:262) and has not returned. -/
def Thread.isHandler : Thread → Bool
  | .hStart _ | .hPollTop _ | .hPoll _ _ | .hReplyTop _ | .hReply _ _ => true
  | _ => false

/-- The goroutine is one of the user's, in SendDMXToAddress. -/
def Thread.isCaller : Thread → Bool
  | .caller _ _ => true
  | _ => false

/-- The goroutine has not returned. -/
def Thread.alive : Thread → Bool
  | .done => false
  | _ => true

end Verif.Conc
