import Verif.Model.Memory
/-
Programs that read the exported fields Nodes, OutputAddress and InputAddress of a Controller (controller.go:87-89), which they cannot
lock: nodeLock is not exported. The reader is the goroutine that makes the life cycle calls, or one that has called SendDMXToAddress.
-/
namespace Verif.Conc
open Packet Code Artnet

/-- An action, or somebody reads a field. -/
inductive Use
  | act (a : Act)
  /-- `none` is the goroutine of the life cycle calls; `some i` began with a call of SendDMXToAddress -/
  | read (who : Option Nat) (x : Loc)

/-- A goroutine reads a variable. -/
def Memory.read (m : Memory) (who : Option Nat) (x : Loc) : Memory :=
  { m with
    events := m.events ++ [(who, [(x, false)])]
    seen := fun w => if w = who then fun k => m.seen who k || k == m.events.length else m.seen w }

/-- The state after an action or a reading; `none` when it is not possible. -/
def Memory.use (P : Params) (m : Memory) : Use → Option Memory
  | .act a => m.exec P a
  | .read none x => if m.sys.crashed = none then some (m.read none x) else none
  | .read (some i) x => if m.sys.crashed = none ∧ m.sys.threads[i]? = some .done then some (m.read (some i) x) else none

/-- The state after a list of actions and readings. -/
def Memory.uses (P : Params) (m : Memory) : List Use → Option Memory
  | [] => some m
  | u :: us =>
    match m.use P u with
    | none => none
    | some m => m.uses P us

end Verif.Conc
