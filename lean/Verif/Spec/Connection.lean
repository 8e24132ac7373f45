import Verif.Model.Conc
/-
Executions in which a port can be used only once.
-/
namespace Verif.Conc

/-- Executions in which the operating system lets nobody listen to a port twice: a call of Start fails while the node has an
open connection. -/
inductive PortReach (P : Params) : Sys → Prop
  | init : PortReach P (Sys.init P)
  | step {s s' a} (h : PortReach P s) (hx : s.exec P a = some s')
      (hl : a = .listen true → ∀ b ∈ s.conns, b = false) : PortReach P s'

end Verif.Conc
