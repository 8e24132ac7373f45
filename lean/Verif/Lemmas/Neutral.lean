import Verif.Lemmas.ConcPoll
import Verif.Lemmas.ConcTidy
import Verif.Spec.Conc
/-
Executions that do not depend on the configuration of a Node.
-/
namespace Verif.Conc
open Packet Code Artnet

/-- The next step of the goroutine depends on the configuration at most through its style, and on the own address at most
through whether that is `src`. -/
def neutral (src : Bytes) : Thread → Bool
  | .rdCheck _ (some (_, a)) => a.ip == src
  | .slTop | .slWait _ | .rlInit | .rlTop | .rlWait _ | .rlParse _ | .rdTop _ | .rdWait _ _ | .rdGot _ _ | .rdPush _ _ _
  | .hStart _ | .hPollTop _ | .hPoll _ _ | .hReplyTop _ | .hReply _ _ => true
  | _ => false

/-- The action is a Start, a successful or failing ListenPacket, or a step of such a goroutine. -/
def neutralAct (src : Bytes) (s : Sys) : Act → Bool
  | .start => s.threads.all Thread.idle
  | .listen _ => true
  | .run i _ => match s.threads[i]? with
    | some t => neutral src t
    | none => false
  | _ => false

/-- The state after actions of this kind. -/
def neutrally (src : Bytes) (Q : Params) (s : Sys) : List Act → Option Sys
  | [] => some s
  | a :: as => if neutralAct src s a then
      match s.exec Q a with
      | some s => neutrally src Q s as
      | none => none
    else none

theorem neutral_step {P Q : Params} {src : Bytes}
    (hc : P.config.type = StyleCode.stController ↔ Q.config.type = StyleCode.stController)
    (hi : ipEqual P.localIP src = ipEqual Q.localIP src) {s s' : Sys} {i : Nat} {t : Thread} {c : Choice} (x : Ctrl)
    (ht : neutral src t = true) (h : s.step Q i t c = some s') :
    ({ s with ctrl := x } : Sys).step P i t c = some { s' with ctrl := x } := by
  cases t <;> first | (cases ht; done) | skip
  all_goals cases c <;> first | (cases h; done) | skip
  all_goals simp only [Sys.step, Sys.comm, Sys.goto, Sys.panic] at h ⊢
  all_goals first
    | (cases h; rfl)
    | (generalize hg : s.cur = g at h ⊢; cases g <;> cases h; rfl)
    | (generalize hg : s.conn = g at h ⊢; cases g <;> cases h; rfl)
    | (repeat' split at h) <;> first | (cases h; done) | (cases h; simp_all; done) | (simp_all; done) |
        (simp only [neutral, beq_iff_eq] at ht; cases h; simp_all; done) | skip

/-- What such actions do to a system they do to every other one that is a Controller or a Node as the first one is, and has
the style StController if and only if the first one has it, if the configurations of both are valid. -/
theorem neutrally_tidy {P Q : Params} {src : Bytes}
    (hc : P.config.type = StyleCode.stController ↔ Q.config.type = StyleCode.stController)
    (hi : ipEqual P.localIP src = ipEqual Q.localIP src) (hk : P.controller = Q.controller)
    (vP : P.config.validate = .ok none) (vQ : Q.config.validate = .ok none) {x : Ctrl} {as : List Act} {s s' : Sys}
    (hr : TidyReach P { s with ctrl := x }) (h : neutrally src Q s as = some s') :
    ∃ x, TidyReach P { s' with ctrl := x } := by
  induction as generalizing s x with
  | nil => cases h; exact ⟨x, hr⟩
  | cons a as ih =>
    simp only [neutrally] at h
    split at h
    case isFalse => cases h
    rename_i hn
    split at h
    case h_2 => cases h
    rename_i s1 hx
    have key : ∃ y, ({ s with ctrl := x } : Sys).exec P a = some { s1 with ctrl := y } := by
      have hcr := (exec_Step hx).1
      cases a with
      | start =>
        unfold Sys.exec at hx ⊢
        simp only [hcr, hk, vP, vQ, Option.isSome_none, Bool.false_eq_true, if_false] at hx ⊢
        split at hx
        · cases hx
        · rename_i hid
          rw [if_neg hid]
          cases hx
          by_cases hC : Q.controller = true
          · simp only [if_pos hC, Sys.makeChannels, Sys.resetTables, hcr]
            exact ⟨_, rfl⟩
          · simp only [if_neg hC, Sys.makeChannels, hcr]
            exact ⟨_, rfl⟩
      | listen ok =>
        unfold Sys.exec at hx ⊢
        simp only [hcr, Option.isSome_none, Bool.false_eq_true, if_false] at hx ⊢
        split at hx
        · cases hx
        · rename_i hid
          rw [if_neg hid]
          split at hx
          · rename_i hok
            rw [if_pos hok]
            cases hx
            simp only [hk, Params.goroutines]
            exact ⟨x, rfl⟩
          · rename_i hok
            rw [if_neg hok]
            cases hx
            exact ⟨x, rfl⟩
      | run i c =>
        simp only [neutralAct] at hn
        split at hn
        case h_2 => cases hn
        rename_i t ht
        rw [exec_run hcr ht] at hx
        rw [exec_run (s := { s with ctrl := x }) hcr ht]
        exact ⟨x, neutral_step hc hi x hn hx⟩
      | _ => cases hn
    obtain ⟨y, hy⟩ := key
    refine ih (x := y) (.step (a := a) hr hy ?_) h
    rintro rfl
    exact fun t ht => List.all_eq_true.mp hn t ht

theorem ipEqual_v4 {x a b : Bytes} (ha : a.length = 4) (hb : b.length = 4) (h1 : ipEqual x a = true)
    (h2 : ipEqual x b = true) : a = b := by
  unfold ipEqual at h1 h2
  by_cases h4 : x.length = 4
  · simp [h4, ha, hb] at h1 h2
    rw [← h1, ← h2]
  · by_cases h16 : x.length = 16
    · simp [h16, ha, hb] at h1 h2
      rw [← h1.2, ← h2.2]
    · simp [h4, h16, ha] at h1

end Verif.Conc
