import Verif.Model.Conc
/-
Node.Config, the addresses and the frame rate while they may change: user code writes Node.Config, an exported field, and calls
SetOption (options.go) at any moment, also while the node runs.
Simplifications: a write is a single step. Broadcast addresses are read when the payload enters sendCh; Go reads them just before it
waits for room in sendCh. When the update loops of two sessions are alive at once, both go by the rate of the one that began last.
-/
namespace Verif.Conc
open Packet Code Artnet

/-- The action is the first statement of dmxUpdateLoop, which reads the frame rate (controller.go:236). -/
def Sys.readsRate (s : Sys) : Act → Bool
  | .run i .next => s.threads[i]? == some .duInit
  | _ => false

/-- An action at a moment when the fields have the values `Q`. -/
def Sys.execWith (Q : Params) (s : Sys) (a : Act) : Option Sys :=
  (s.exec Q a).map fun s' => if s.readsRate a then { s' with ctrl := { s'.ctrl with maxFPS := Q.maxFPS } } else s'

/-- A list of actions, each with the values of the fields at that moment. -/
def Sys.execsWith (s : Sys) : List (Params × Act) → Option Sys
  | [] => some s
  | (Q, a) :: xs =>
    match s.execWith Q a with
    | none => none
    | some s => s.execsWith xs

end Verif.Conc
