import Verif.Model.Timing
import Verif.Spec.Controller
/-
What it means that a node answers the polls of a controller, except for some.
-/
namespace Verif.Spec
open Artnet

/-- At time `t` the answer to poll `k` arrives, at most `d` after the poll. Poll `k` is at `k` poll intervals. -/
def Answers (d : Int) (k t : Int) : Prop := k * pollInterval ≤ t ∧ t ≤ k * pollInterval + d

/-- The node at `ip` leaves at most `n` polls in a row without an answer, and its answers take at most `d`: when gcNode runs and
the node was heard from, the last answer was to a poll `k`, and the answer to poll `k + n + 1` is not overdue. -/
def MissesAtMost (n : Nat) (d : Int) (ip : Bytes) (os : List Op) : Prop :=
  ∀ pre clock post, os = pre ++ .gc clock :: post → ∀ t, heardAt ip pre = some t →
    ∃ k, Answers d k t ∧ ∀ j, clock j ≤ (k + n + 1) * pollInterval + d

/-- The node at `ip` is known. -/
def Known (c : Ctrl) (ip : Bytes) : Prop := ∃ r ∈ c.nodes, ipOf c r = ip

end Verif.Spec
