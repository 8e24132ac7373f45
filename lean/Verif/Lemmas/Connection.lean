import Verif.Lemmas.ConcAlive
import Verif.Spec.Connection
/-
Which connections are open.
-/
namespace Verif.Conc
open Packet Code Artnet

theorem PortReach.reach {P : Params} {s : Sys} (h : PortReach P s) : Reach P s := by
  induction h with
  | init => exact .init P
  | step _ hx _ ih => exact ih.exec hx

/-- Every connection but the newest is closed. -/
def OldClosed (s : Sys) : Prop := ∀ k, k + 1 < s.conns.length → s.conns[k]? = some false

theorem OldClosed.listen {s : Sys} {l : List Bool} (hl : ∀ b ∈ s.conns, b = false) (he : l = s.conns ++ [true]) :
    ∀ k, k + 1 < l.length → l[k]? = some false := by
  subst he
  intro k hk
  simp only [List.length_append, List.length_singleton] at hk
  have hk' : k < s.conns.length := by omega
  rw [List.getElem?_append_left hk', List.getElem?_eq_getElem hk']
  exact congrArg some (hl _ (List.getElem_mem _))

/-- A step that is no listen opens no connection. -/
theorem exec_conns {P : Params} {s s' : Sys} {a : Act} (hx : s.exec P a = some s') :
    s'.conns = s.conns ∨ s'.conns = s.closeConn ∨ (a = .listen true ∧ s'.conns = s.conns ++ [true]) := by
  by_cases ha : a = .listen true
  · subst ha
    unfold Sys.exec at hx
    split at hx
    · cases hx
    · simp only at hx
      split at hx
      · cases hx
      · cases hx; exact .inr (.inr ⟨rfl, rfl⟩)
  · cases a with
    | run i c =>
      unfold Sys.exec at hx
      split at hx
      · cases hx
      · simp only at hx
        cases ht : s.threads[i]? with
        | none => rw [ht] at hx; cases hx
        | some t =>
          rw [ht] at hx
          exact .inl (step_frame hx).conns
    | _ =>
      unfold Sys.exec at hx
      split at hx
      · cases hx
      · simp only [Sys.resetTables, Sys.makeChannels, Sys.panic] at hx
        repeat' split at hx
        all_goals first
          | (cases hx; done)
          | (cases hx; exact .inl rfl)
          | (cases hx; exact .inr (.inl rfl))
          | (rename_i ok _ hok; exact absurd (congrArg Act.listen hok) ha)

theorem OldClosed.closeConn {P : Params} {s s' : Sys} (hr : Reach P s) (h : OldClosed s) (he : s'.conns = s.closeConn) :
    OldClosed s' := by
  intro k hk
  have hl := (life hr).conn
  rw [he] at hk ⊢
  simp only [Sys.closeConn] at hk ⊢
  cases hc : s.conn with
  | none => rw [hc] at hk; simp only at hk ⊢; exact h k hk
  | some j =>
    rw [hc] at hk hl
    simp only [List.length_set] at hk ⊢
    have := lastIdx_top hl.symm
    rw [List.getElem?_set_ne (by omega)]
    exact h k hk

theorem port_old {P : Params} {s : Sys} (h : PortReach P s) : OldClosed s := by
  induction h with
  | init => intro k hk; cases hk
  | @step s s' a h hx hl ih =>
    rcases exec_conns hx with e | e | ⟨ha, e⟩
    · intro k hk; rw [e] at hk ⊢; exact ih k hk
    · exact ih.closeConn h.reach e
    · exact OldClosed.listen (hl ha) e

theorem all_closed {s : Sys} (h : OldClosed s) (hn : ∀ k, k + 1 = s.conns.length → s.conns[k]? = some false) :
    ∀ b ∈ s.conns, b = false := by
  intro b hb
  obtain ⟨k, hk⟩ := List.mem_iff_getElem?.mp hb
  have hlt := (List.getElem?_eq_some_iff.mp hk).1
  by_cases e : k + 1 = s.conns.length
  · have := hn k e; rw [hk] at this; exact Option.some.inj this
  · have := h k (by omega); rw [hk] at this; exact Option.some.inj this

theorem tidy_old {P : Params} {s : Sys} (h : TidyReach P s) : OldClosed s := by
  induction h with
  | init => intro k hk; cases hk
  | @step s s' a h hx ht ih =>
    rcases exec_conns hx with e | e | ⟨ha, e⟩
    · intro k hk; rw [e] at hk ⊢; exact ih k hk
    · exact ih.closeConn h.reach e
    · have hcr := (exec_Step hx).1
      have hc : s.control = .listening := by
        subst ha
        unfold Sys.exec at hx
        rw [hcr, if_neg (by simp)] at hx
        simp only at hx
        split at hx
        · cases hx
        · rename_i hn; exact Decidable.not_not.mp hn
      refine OldClosed.listen (all_closed ih fun k hk => ?_) e
      have h1 := (alive h hcr).1 hc
      rw [List.getLast?_eq_getElem?, show s.conns.length - 1 = k by omega] at h1
      cases hb : s.conns[k]? with
      | none => have := List.getElem?_eq_none_iff.mp hb; omega
      | some b =>
        cases b with
        | false => rfl
        | true => exact absurd hb h1

/-- The connection of a node that is stopped. -/
theorem stopped_closed {P : Params} {s : Sys} (hr : Reach P s) (h : OldClosed s) (hp : s.phase = .stopped) :
    ∀ b ∈ s.conns, b = false := by
  refine all_closed h fun k hk => (life hr).unplugged (.inr hp) k ?_
  rw [(life hr).conn, lastIdx, if_neg (by omega), ← hk]
  rfl

end Verif.Conc
