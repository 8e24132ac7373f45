import Verif.Model.Conc
/-
Which fields of Node and Controller are used without a lock, and when two such uses are a data race.
-/
namespace Verif.Spec
open Packet Code Artnet Conc

/-- The fields that the goroutines share and that no lock protects in Start, RegisterCallback and
DeregisterCallback. -/
inductive Field
  /-- Node.callbacks (node.go:44), a map -/
  | callbacks
  /-- Node.conn (node.go:25) -/
  | conn
  /-- Node.sendCh, recvCh, shutdownCh, pollCh, pollReplyCh (node.go:28-40) -/
  | channels
  /-- Controller.shutdownCh (controller.go:94) -/
  | ctrlDown
  /-- Controller.OutputAddress and InputAddress (controller.go:88-89): Start assigns them without nodeLock -/
  | tables
  deriving DecidableEq

/-- The fields that the next step of a goroutine uses. -/
def Thread.uses : Thread → List Field
  | .prTop _ | .prGot _ | .slTop | .rlTop | .rdGot _ _ | .hPollTop _ | .hReplyTop _ | .plSendTop | .plPollTop
  | .duTick (_ :: _) _ _ => [.channels]
  | .slWrite _ | .rdTop _ => [.conn]
  | .hStart _ => [.callbacks]
  | .plTop => [.channels, .ctrlDown]
  | .duTop => [.ctrlDown]
  | .plGc | .plGot _ | .duLock | .caller _ _ => [.tables]
  | _ => []

/-- The fields that a call of Start, RegisterCallback or DeregisterCallback assigns or changes in its next
step. -/
def Act.assigns (P : Params) (s : Sys) : Act → List Field
  | .start =>
    (if P.controller then [.tables, .ctrlDown] else []) ++
    match P.config.validate with
    | .ok none => [.channels]
    | _ => []
  | .listen true => [.conn]
  | .register _ _ | .deregister _ => if s.shutdown then [.callbacks] else []
  | _ => []

/-- A data race: the call can do its next step, which assigns a field that the next step of a goroutine
uses. -/
def Race (P : Params) (s : Sys) (a : Act) : Prop :=
  ∃ (s' : Sys) (f : Field) (i : Nat) (t : Thread), s.exec P a = some s' ∧
    f ∈ Act.assigns P s a ∧ s.threads[i]? = some t ∧ f ∈ Thread.uses t

/-- Calls of Start, RegisterCallback and DeregisterCallback are only made when they are refused or all
goroutines have returned. -/
def Orderly (P : Params) (s : Sys) : List Act → Prop
  | [] => True
  | a :: as =>
    (Act.assigns P s a ≠ [] → s.control = .idle → ∀ t ∈ s.threads, t = .done) ∧
    ∀ s', s.exec P a = some s' → Orderly P s' as

end Verif.Spec
