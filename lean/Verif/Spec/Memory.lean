import Verif.Model.Memory
/-
Data races.
-/
namespace Verif.Spec
open Packet Code Artnet Conc

/-- An action is in a data race with event number `k`: both touch the same variable, at least one of them writes it, and the event
does not happen before the action. -/
def RacesWith (P : Params) (m : Memory) (a : Act) (k : Nat) : Prop :=
  ∃ who ts x v w, m.events[k]? = some (who, ts) ∧ (x, v) ∈ ts ∧ (x, w) ∈ m.sys.touches P a ∧ (v = true ∨ w = true) ∧
    m.before a k = false

/-- No action is in a data race with an earlier one. -/
def RaceFree (P : Params) (m : Memory) : List Act → Prop
  | [] => True
  | a :: as => ∀ m', m.exec P a = some m' → (∀ k, ¬ RacesWith P m a k) ∧ RaceFree P m' as

/-- Neither Start nor RegisterCallback nor DeregisterCallback is called. -/
def quiet : List Act → Bool
  | [] => true
  | .start :: _ | .register _ _ :: _ | .deregister _ :: _ => false
  | _ :: as => quiet as

/-- Start is not called again, and nothing is registered after Stop. -/
def lastSession : List Act → Bool
  | [] => true
  | .start :: _ => false
  | .stop :: as => quiet as
  | _ :: as => lastSession as

/-- The calls of one session: callbacks are registered, Start is called and returns; Start is not called again, and nothing is
registered after Stop. -/
def OneSession (as : List Act) : Prop :=
  ∃ pre ok post, as = pre ++ .start :: .listen ok :: post ∧
    (∀ a ∈ pre, ∃ o h, a = .register o h ∨ a = .deregister o) ∧ lastSession post = true

end Verif.Spec
