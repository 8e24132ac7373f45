import Verif.Model.Fine
/-
An execution in small steps as an execution in which every critical section is one step.
-/
namespace Verif.Spec
open Packet Code Artnet Conc

/-- The actions of an execution in small steps, a section at the place where it unlocks. The first argument is the section that has
begun. -/
def wholeActs : Option (Nat × Choice) → List Small → List Act
  | _, [] => []
  | _, .enter i c _ :: xs => wholeActs (some (i, c)) xs
  | b, .work :: xs => wholeActs b xs
  | some (i, c), .leave :: xs => .run i c :: wholeActs none xs
  | none, .leave :: xs => wholeActs none xs
  | b, .act a :: xs => a :: wholeActs b xs

/-- Start is not called between the beginning of a section and its end. The first argument tells whether a section has begun. -/
def startsOutside : Bool → List Small → Bool
  | _, [] => true
  | _, .enter _ _ _ :: xs => startsOutside true xs
  | b, .work :: xs => startsOutside b xs
  | _, .leave :: xs => startsOutside false xs
  | b, .act .start :: xs => !b && startsOutside b xs
  | b, .act _ :: xs => startsOutside b xs

end Verif.Spec
