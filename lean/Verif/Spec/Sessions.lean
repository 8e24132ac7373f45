import Verif.Spec.Callers
/-
Which calls of Start have succeeded.
-/
namespace Verif.Callers
open Packet Code Artnet Conc

/-- A call of Start that has returned nil. -/
def succeeded : Kind × Pc → Bool
  | (.start, .returned true) => true
  | _ => false

/-- A call of Start that has returned an error. -/
def refused : Kind × Pc → Bool
  | (.start, .returned false) => true
  | _ => false

end Verif.Callers
