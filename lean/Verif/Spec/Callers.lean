import Verif.Model.Callers
/-
Definitions for calls made by several goroutines.
-/
namespace Verif.Callers
open Packet Code Artnet Conc

/-- Every call has returned. -/
def State.quiet (s : State) : Prop := ∀ c ∈ s.calls, ∃ ok, c.2 = .returned ok

/-- The states that can be reached when no call is made before every earlier one has returned. -/
inductive Serial (P : Params) : State → Prop
  | init : Serial P State.init
  | step {s s' a} (h : Serial P s) (hx : s.exec P a = some s') (hq : ∀ κ, a = .call κ → s.quiet) : Serial P s'

/-- The fields fit together. The node is stopped: the last channel shutdownCh is closed and so is the last connection, if
there are any. Or it is started: the last shutdownCh is open. The channels of the node were made by one call. -/
def Consistent (s : Shared) : Prop :=
  (s.fields.shutdown = true → (∀ k, s.fields.down = some k → s.fields.downs[k]? = some true) ∧
    (∀ k, s.fields.conn = some k → s.fields.conns[k]? = some false)) ∧
  (s.fields.shutdown = false → ∃ k, s.fields.down = some k ∧ s.fields.downs[k]? = some false) ∧
  s.send = s.recv ∧ s.recv = s.poll ∧ s.poll = s.reply

/-- The shared fields in the model with one caller. -/
def _root_.Verif.Conc.Sys.fields (s : Sys) : Fields where
  callbacks := s.callbacks
  shutdown := s.shutdown
  downs := s.chans.map Chans.down
  down := s.cur
  conns := s.conns
  conn := s.conn
  err := s.shutdownErr
  tickers := s.tickers
  cdowns := s.cdown
  cdown := s.ccur

/-- Stop has closed the channel shutdownCh of the node. -/
def stopClosed : Kind × Pc → Bool
  | (.stop, .test) | (.stop, .unplug) | (.stop, .loadWait) | (.stop, .wait _) | (.stop, .loadC) | (.stop, .closeC _)
  | (.stop, .returned _) => true
  | _ => false

def isStart : Kind × Pc → Bool
  | (.start, _) => true
  | _ => false

def isStop : Kind × Pc → Bool
  | (.stop, _) => true
  | _ => false

end Verif.Callers
