import Verif.Spec.Controller
/-
Specification vocabulary for the rate of updates.
-/
namespace Verif.Spec
open Artnet Packet

/-- The times of the ticks in a history. -/
def tickTimes : List Op → List Int
  | [] => []
  | .tick _ now :: os => now :: tickTimes os
  | _ :: os => tickTimes os

/-- Consecutive times are at least `d` apart. -/
def Spaced (d : Int) : List Int → Prop
  | t :: u :: l => t + d ≤ u ∧ Spaced d (u :: l)
  | _ => True

/-- All times are in the second that begins at `t`. -/
def WithinSecond (t : Int) (l : List Int) : Prop := ∀ u ∈ l, t ≤ u ∧ u < t + 1000000000

end Verif.Spec
