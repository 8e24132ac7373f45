import Verif.Model.Log
import Verif.Lemmas.Controller
/-
The fields of log entries: C119.
-/
namespace Verif.Props
open Artnet

/-! ### C119 -/

/-- What the fields are when `type` was set last: the user's, except that one. -/
def tagged (log : Logger) (t k : String) : Option String := if k = "type" then some t else log.get k

/-- C119 as stated: whatever the user's logger, the entries of a Node carry type=Node, those of a Controller
type=Controller, and both carry the other fields of the user. -/
def C119_statement : Prop := ∀ (log : Logger) (n : Nat) (k : String),
  (nodeLog log).get k = tagged log "Node" k ∧
  ((CtrlLogs.new log).starts n).node.get k = tagged log "Node" k ∧
  ((CtrlLogs.new log).starts n).log.get k = tagged log "Controller" k

/-- Before Start the entries of a Controller have no type. -/
theorem C119_false : ¬ C119_statement := by
  intro h
  have := (h newDefaultLogger 0 "type").2.2
  revert this
  decide

/-- C119 as far as it holds: for the entries of nodes always, for those of the Controller from the first Start on. -/
theorem C119_partial (log : Logger) (n : Nat) (k : String) :
    (nodeLog log).get k = tagged log "Node" k ∧
    ((CtrlLogs.new log).starts n).node.get k = tagged log "Node" k ∧
    ((CtrlLogs.new log).starts n).log.get k = if n = 0 then log.get k else tagged log "Controller" k := by
  have hw (l : Logger) (t : String) : (Logger.with l [("type", t)]).get k = tagged l t k := by
    simp only [Logger.with, List.foldl_cons, List.foldl_nil, tagged, GoMap.get_set]
  have hn := hw log "Node"
  refine ⟨hn, ?_⟩
  have hl : ∀ n, ((CtrlLogs.new log).starts n).log.get k = if n = 0 then log.get k else tagged log "Controller" k := by
    intro n
    induction n with
    | zero => rfl
    | succ n ih =>
      rw [if_neg (Nat.succ_ne_zero n)]
      show (Logger.with ((CtrlLogs.new log).starts n).log [("type", "Controller")]).get k = _
      rw [hw]
      unfold tagged at ih ⊢
      by_cases h : k = "type"
      · rw [if_pos h, if_pos h]
      · rw [if_neg h, if_neg h, ih]
        split <;> rfl
  refine ⟨?_, hl n⟩
  cases n with
  | zero => exact hn
  | succ n =>
    show (Logger.with ((CtrlLogs.new log).starts n).log [("type", "Node")]).get k = _
    rw [hw]
    unfold tagged
    by_cases h : k = "type"
    · rw [if_pos h, if_pos h]
    · rw [if_neg h, if_neg h, hl n]
      split
      · rfl
      · unfold tagged; rw [if_neg h]

/-- Restarting does not add fields: there is at most one more than the user gave. -/
theorem C119_bounded (log : Logger) (n : Nat) :
    ((CtrlLogs.new log).starts n).log.length ≤ log.length + 1 ∧ ((CtrlLogs.new log).starts n).node.length ≤ log.length + 1 := by
  have hd (l : Logger) : (GoMap.del l "type").length ≤ l.length := List.length_filter_le ..
  have hdd (l : Logger) (t : String) : GoMap.del (Logger.with l [("type", t)]) "type" = GoMap.del l "type" := by
    simp [Logger.with, GoMap.set, GoMap.del, List.filter_filter]
  have hl (l : Logger) (t : String) : (Logger.with l [("type", t)]).length = (GoMap.del l "type").length + 1 := by
    simp [Logger.with, GoMap.set]
  have hk : ∀ n, GoMap.del ((CtrlLogs.new log).starts n).log "type" = GoMap.del log "type" := by
    intro n
    induction n with
    | zero => rfl
    | succ n ih => exact (hdd _ _).trans ih
  have h0 := hd log
  cases n with
  | zero => exact ⟨Nat.le_succ _, by show (Logger.with log _).length ≤ _; rw [hl]; omega⟩
  | succ n =>
    constructor
    · show (Logger.with ((CtrlLogs.new log).starts n).log [("type", "Controller")]).length ≤ _
      rw [hl, hk n]
      omega
    · show (Logger.with ((CtrlLogs.new log).starts n).log [("type", "Node")]).length ≤ _
      rw [hl, hk n]
      omega

/-- A logger with a field of its own, two Starts. -/
example : ((CtrlLogs.new (newLogger [("app", "x")])).starts 2).log.get "app" = some "x" ∧
    ((CtrlLogs.new (newLogger [("app", "x")])).starts 2).log.get "type" = some "Controller" ∧
    ((CtrlLogs.new (newLogger [("app", "x")])).starts 2).node.get "type" = some "Node" := by decide

end Verif.Props
