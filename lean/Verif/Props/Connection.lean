import Verif.Props.Life
import Verif.Model.Access
import Verif.Lemmas.Connection
/-
The connection of a node: C112, C113.
-/
namespace Verif.Props
open Spec Packet Code Artnet Conc

/-! ### C112 -/

/-- C112 as stated: Connection returns nil or a connection that is open. -/
def C112_statement : Prop := ∀ (P : Params) (s : Sys), Reach P s → ∀ k, s.connection = some k → s.conns[k]? = some true

/-- After Stop the connection that was closed is still returned. -/
theorem C112_false : ¬ C112_statement := by
  intro h
  have hw : after sampleNode [.start, .listen true, .stop, .stopStep, .stopStep]
      (fun s => s.connection == some 0 && s.conns == [false] && s.phase == .stopped) = true := by decide +kernel
  obtain ⟨s, hr, _, hs⟩ := after_reach hw
  simp only [Bool.and_eq_true, beq_iff_eq] at hs
  have := h _ s hr 0 hs.1.1
  rw [hs.1.2] at this
  cases this

/-- C112 as far as it holds: Connection returns nil until a call of Start could listen, and from then on the newest
connection. While a session is on it is open; when Stop has returned it is closed. -/
theorem C112_partial {P : Params} {s : Sys} (h : Reach P s) :
    (s.connection = none ↔ s.conns = []) ∧
    (∀ k, s.connection = some k → k + 1 = s.conns.length) ∧
    (s.on → ∃ k, s.connection = some k ∧ s.conns[k]? = some true) ∧
    (s.phase = .stopped → ∀ k, s.connection = some k → s.conns[k]? = some false) := by
  have hl := life h
  have hc : s.connection = lastIdx s.conns := hl.conn
  refine ⟨by rw [hc, lastIdx_none], fun k hk => lastIdx_top (hc ▸ hk), fun hon => ?_, fun hp k hk => hl.unplugged (.inr hp) k hk⟩
  cases hk : lastIdx s.conns with
  | none =>
    have h2 := hon.2
    rw [lastIdx_none.mp hk] at h2
    cases h2
  | some k => exact ⟨k, hc.trans hk, (lastIdx_get hk).trans hon.2⟩

/-- A session, a Stop and a second session. -/
example : after sampleNode [.start, .listen true, .stop, .stopStep, .stopStep, .start, .listen true]
    (fun s => s.connection == some 1 && s.conns == [false, true] && s.phase == .started) = true := by decide +kernel

/-! ### C113 -/

/-- C113: if nobody can listen to a port twice, a node has at most one open connection, the one that Connection returns, and
none when Stop has returned. -/
theorem C113_port {P : Params} {s : Sys} (h : PortReach P s) :
    (∀ k, s.conns[k]? = some true → s.connection = some k) ∧ (s.phase = .stopped → ∀ b ∈ s.conns, b = false) := by
  refine ⟨fun k hk => ?_, stopped_closed h.reach (port_old h)⟩
  have hlt := (List.getElem?_eq_some_iff.mp hk).1
  have e : k + 1 = s.conns.length := by
    by_cases e : k + 1 = s.conns.length
    · exact e
    · have := port_old h k (by omega)
      rw [hk] at this
      cases this
  show s.conn = _
  rw [(life h.reach).conn, lastIdx, if_neg (by omega), ← e]
  rfl

/-- C113, whatever the operating system does, if every Start waits for the goroutines of the session before. -/
theorem C113_tidy {P : Params} {s : Sys} (h : TidyReach P s) :
    (∀ k, s.conns[k]? = some true → s.connection = some k) ∧ (s.phase = .stopped → ∀ b ∈ s.conns, b = false) := by
  refine ⟨fun k hk => ?_, stopped_closed h.reach (tidy_old h)⟩
  have hlt := (List.getElem?_eq_some_iff.mp hk).1
  have e : k + 1 = s.conns.length := by
    by_cases e : k + 1 = s.conns.length
    · exact e
    · have := tidy_old h k (by omega)
      rw [hk] at this
      cases this
  show s.conn = _
  rw [(life h.reach).conn, lastIdx, if_neg (by omega), ← e]
  rfl

/-- One of the hypotheses is needed: if a second Start could listen while the first connection is open, nobody would close
the first one. -/
example : after sampleNode [.start, .listen true, .start, .listen true, .stop, .stopStep, .stopStep]
    (fun s => s.conns == [true, false] && s.phase == .stopped) = true := by decide +kernel

def mayDo (s : Sys) : Act → Bool
  | .listen true => s.conns.all (! ·)
  | _ => true

/-- The state after `as` if nobody listens twice on the way. -/
def ported (P : Params) (s : Sys) : List Act → Option Sys
  | [] => some s
  | a :: as => if mayDo s a then (s.exec P a).bind fun s => ported P s as else none

theorem ported_reach {P : Params} {s s' : Sys} {as : List Act} (h : PortReach P s) (hx : ported P s as = some s') :
    PortReach P s' := by
  induction as generalizing s with
  | nil => cases hx; exact h
  | cons a as ih =>
    unfold ported at hx
    by_cases hc : mayDo s a = true
    · rw [if_pos hc] at hx
      obtain ⟨s1, h1, h2⟩ := Option.bind_eq_some_iff.mp hx
      refine ih (.step h h1 fun ha b hb => ?_) h2
      subst ha
      simpa using List.all_eq_true.mp hc b hb
    · rw [if_neg hc] at hx; cases hx

/-- A second Start fails, and Stop closes the connection of the first. -/
example : ∃ s, PortReach sampleNode s ∧ s.phase = .stopped ∧ s.conns = [false] := by
  have h : (ported sampleNode (Sys.init sampleNode) [.start, .listen true, .start, .listen false, .stop, .stopStep,
    .stopStep]).any (fun s => s.conns == [false] && s.phase == .stopped) = true := by decide +kernel
  obtain ⟨s, hx, hs⟩ := Option.any_eq_true .. |>.mp h
  simp only [Bool.and_eq_true, beq_iff_eq] at hs
  exact ⟨s, ported_reach .init hx, hs.2, hs.1⟩

end Verif.Props
