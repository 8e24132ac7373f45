import Verif.Model.Reader
import Verif.Spec.Memory
/-
Data races of programs that read exported fields.
-/
namespace Verif.Spec
open Packet Code Artnet Conc

/-- The actions. -/
def actsOf : List Use → List Act
  | [] => []
  | .act a :: us => a :: actsOf us
  | .read _ _ :: us => actsOf us

/-- The exported fields Nodes, OutputAddress and InputAddress. -/
def Exported (x : Loc) : Prop := x = .nodes ∨ x = .tables

/-- A goroutine that reads a variable is in a data race with event number `k`, which wrote it and does not happen before. -/
def ReadRaces (m : Memory) (who : Option Nat) (x : Loc) (k : Nat) : Prop :=
  ∃ w ts, m.events[k]? = some (w, ts) ∧ (x, true) ∈ ts ∧ m.seen who k = false

/-- Nothing is in a data race with something earlier. -/
def FreeOfRaces (P : Params) (m : Memory) : List Use → Prop
  | [] => True
  | .act a :: us => ∀ m', m.use P (.act a) = some m' → (∀ k, ¬ RacesWith P m a k) ∧ FreeOfRaces P m' us
  | .read who x :: us => ∀ m', m.use P (.read who x) = some m' → (∀ k, ¬ ReadRaces m who x k) ∧ FreeOfRaces P m' us

end Verif.Spec
