import Verif.Spec.Fair
/-
The tickers of pollLoop: when they fire, and what a controller is to send then.
-/
namespace Verif.Conc
open Packet Code Artnet

/-- pollLoop waits, and its poll ticker fires. -/
def pollFires (s : Sys) : Act → Bool
  | .run i .tick => match s.threads[i]? with
    | some (.plWait _ _) => true
    | _ => false
  | _ => false

/-- How often the poll ticker fires while the actions happen. -/
def pollTicks (P : Params) (s : Sys) : List Act → Nat
  | [] => 0
  | a :: as => (if pollFires s a then 1 else 0) + match s.exec P a with
    | none => 0
    | some s' => pollTicks P s' as

/-- How often the poll ticker fires before moment `n`. -/
def Exec.pollTicks {P : Params} (e : Exec P) (n : Nat) : Nat :=
  (List.range n).countP fun k => pollFires (e.state k) (e.act k)

/-- pollLoop is about to put an ArtPoll into sendCh. -/
def Thread.polling : Thread → Bool
  | .plSendTop | .plSend _ => true
  | _ => false

/-- The ArtPoll of a controller: the eight bytes `Art-Net`, OpCode 0x2000, protocol version 14, replies on
change, diagnostics of every priority. -/
def artPollBytes : Bytes := [0x41, 0x72, 0x74, 0x2d, 0x4e, 0x65, 0x74, 0, 0x00, 0x20, 0, 14, 2, 0]

end Verif.Conc
