import Verif.Spec.Fair
/-
What is between the stages of the concurrent program.
-/
namespace Verif.Conc
open Packet Code Artnet Spec

/-- A goroutine between a call of the built-in call-back for ArtPoll and the reply in sendCh. -/
def Thread.answering : Thread → Bool
  | .hPollTop _ | .hPoll _ _ | .prGot _ | .prSend _ _ => true
  | _ => false

/-- The polls, of all sessions, that have not been answered. -/
def Sys.unanswered (s : Sys) : Nat := (s.chans.flatMap Chans.poll).length + s.threads.countP Thread.answering

/-- A goroutine between a call of the built-in call-back for ArtPollReply with `p` and its processing. -/
def Thread.relaying (p : ArtPollReply) : Thread → Bool
  | .hReplyTop q | .hReply _ q | .plGot q => q == p
  | _ => false

/-- How often `p` has been given to the call-back and not been processed, in all sessions. -/
def Sys.unprocessed (p : ArtPollReply) (s : Sys) : Nat :=
  (s.chans.flatMap Chans.pollReply).count p + s.threads.countP (Thread.relaying p)

end Verif.Conc
