import Verif.Props.Registers
import Verif.Spec.Constants
/-
The declared constants of packet/code: C123.
-/
namespace Verif.Props
open Spec Code

/-! ### C123 -/

/-- The declared constants have the documented values; OpDMX is OpOutput. -/
theorem C123_values : declaredOps = opNames ∧ OpCode.opDMX = 0x5000 ∧ OpCode.opDMX = OpCode.opOutput ∧
    declaredStyles = styleNames ∧ declaredReports = reportNames ∧ declaredPriorities = priorityNames := by
  decide +kernel

/-- C123: every declared constant prints its own name, no two of the same type are equal, and the operation and
style codes that are valid are the declared ones. -/
theorem C123_declared :
    (∀ e ∈ declaredOps, OpCode.str e.1 = .ok e.2) ∧ (declaredOps.map Prod.fst).Nodup ∧
    (∀ o, OpCode.validOp o = true ↔ o ∈ declaredOps.map Prod.fst) ∧
    (∀ e ∈ declaredStyles, StyleCode.str e.1 = .ok e.2) ∧ (declaredStyles.map Prod.fst).Nodup ∧
    (∀ s, StyleCode.validStyle s = true ↔ s ∈ declaredStyles.map Prod.fst) ∧
    (∀ e ∈ declaredReports, NodeReportCode.str e.1 = .ok e.2) ∧ (declaredReports.map Prod.fst).Nodup ∧
    (∀ e ∈ declaredPriorities, PriorityCode.str e.1 = e.2) ∧ (declaredPriorities.map Prod.fst).Nodup := by
  obtain ⟨h1, _, _, h2, h3, h4⟩ := C123_values
  rw [h1, h2, h3, h4]
  obtain ⟨⟨_, o1, _⟩, ⟨_, s1, _⟩, ⟨_, r1, _⟩, ⟨p1, _⟩⟩ := C28_strings
  obtain ⟨v1, _, v2, _⟩ := C29_valid
  exact ⟨o1, by decide, v1, s1, by decide, v2, r1, by decide, p1, by decide⟩

example : (OpCode.opTodRequest, "OpTodRequest") ∈ declaredOps ∧ (NodeReportCode.rcSwitchErr, "RcSwitchErr") ∈ declaredReports := by
  decide

end Verif.Props
