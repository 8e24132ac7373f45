import Verif.Spec.Say
import Verif.Spec.Conc
/-
The log as a ledger of the datagrams.
-/
namespace Verif.Conc
open Packet Code Artnet

/-- The action is the one in which sendLoop finds the Node stopped with a datagram in its hand (node.go:190-192). -/
def Sys.gives (s : Sys) : Act → Nat
  | .run i .next =>
    match s.threads[i]? with
    | some (.slCheck _) => if s.shutdown then 1 else 0
    | _ => 0
  | _ => 0

/-- How many datagrams sendLoop took from sendCh and gave up during an execution. -/
def Sys.givenUp (P : Params) (s : Sys) : List Act → Nat
  | [] => 0
  | a :: as =>
    match s.exec P a with
    | none => 0
    | some s' => s.gives a + s'.givenUp P as

/-- The goroutine is a sendLoop. -/
def Thread.sends : Thread → Bool
  | .slTop | .slWait _ | .slCheck _ | .slWrite _ => true
  | _ => false

end Verif.Conc
