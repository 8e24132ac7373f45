import Verif.Model.Net
/-
Vocabulary for networks of hosts.
-/
namespace Verif.Spec
open Artnet Conc Net

/-- The datagrams (host, number) that are delivered to host `j`. -/
def deliveries (j : Nat) : List Event → List (Nat × Nat)
  | [] => []
  | .deliver k m j' _ :: es => if j' = j then (k, m) :: deliveries j es else deliveries j es
  | .act _ _ :: es => deliveries j es

end Verif.Spec
