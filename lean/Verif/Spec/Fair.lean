import Verif.Spec.Conc
/-
Infinite executions and fairness, for statements about what happens eventually.
-/
namespace Verif.Conc
open Packet Code Artnet Spec

/-- An infinite execution within one session: Start has returned, Stop is not called, nothing panics. The past of
the first state is arbitrary, except that every Start waited for the goroutines of the session before. -/
structure Exec (P : Params) where
  state : Nat → Sys
  act : Nat → Act
  first : TidyReach P (state 0)
  next : ∀ n, (state n).exec P (act n) = some (state (n + 1))
  tidy : ∀ n, act n = .start → ∀ t ∈ (state n).threads, t.idle = true
  session : ∀ n, (state n).on

/-- Goroutine `i` is at `t` and can go on by itself: without a ticker firing, and not out of a read. -/
def Sys.ready (P : Params) (s : Sys) (i : Nat) (t : Thread) : Prop :=
  s.threads[i]? = some t ∧ (∀ k b, t ≠ .rdWait k b) ∧
    ∃ c s', (Act.run i c).quiet = true ∧ s.exec P (.run i c) = some s'

/-- At time `n` goroutine `i`, which is at `t`, does a step by itself. -/
def Exec.goes {P : Params} (e : Exec P) (i : Nat) (t : Thread) (n : Nat) : Prop :=
  (e.state n).threads[i]? = some t ∧ ∃ c, (Act.run i c).quiet = true ∧ e.act n = .run i c

/-- Fairness of the scheduler, of the queues of goroutines waiting at a channel or at a lock, and of select: what a
goroutine can do again and again it does again and again. Nothing is assumed about tickers and about the network. -/
def Exec.Fair {P : Params} (e : Exec P) : Prop := ∀ i t, (∀ n, ∃ m, n ≤ m ∧ (e.state m).ready P i t) →
  ∀ n, ∃ m, n ≤ m ∧ e.goes i t m

/-- What one of the queues of the session holds. -/
def Sys.newest (f : Chans → List α) (s : Sys) : List α :=
  match s.chans.getLast? with
  | some ch => f ch
  | none => []

/-- The packets for which the call-back has been called, or that had none. -/
def Sys.finished (s : Sys) : List AnyPacket := s.calls.map (·.2) ++ s.dropped

/-- The packets of other hosts that the session has read and not finished. -/
def Sys.pending (P : Params) (s : Sys) : List AnyPacket :=
  (s.checking.filter (fromOther P) ++ s.threads.flatMap Thread.carried ++ s.newest Chans.recv).filterMap decode ++
    s.handling

/-- The packets of other hosts that arrive before time `n`. -/
def Exec.arrivals {P : Params} (e : Exec P) (n : Nat) : List AnyPacket :=
  ((((e.state n).arrived.drop (e.state 0).arrived.length).filter (fromOther P)).map trunc).filterMap decode

/-- What sendLoop has taken and not yet written, and what is in the sendCh of the session. -/
def Sys.outgoing (s : Sys) : List Payload := s.threads.flatMap Thread.writing ++ s.newest Chans.send

/-- Calls of the built-in call-back for ArtPollReply with packet `p`. -/
def isReplyCall (p : ArtPollReply) (c : Handler × AnyPacket) : Bool := c == (.pollReply, .pollReply p)

/-- pollLoop processes packet `p`. -/
def isReplyOp (p : ArtPollReply) : Op → Bool
  | .reply q _ => q == p
  | _ => false

/-- No write to the connection fails. -/
def Exec.writes {P : Params} (e : Exec P) : Prop :=
  ∀ n i p, (e.state n).threads[i]? = some (.slWrite p) → e.act n ≠ .run i .fail

end Verif.Conc
