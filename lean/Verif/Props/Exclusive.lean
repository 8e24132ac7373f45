import Verif.Spec.Exclusive
import Verif.Lemmas.ConcLin
import Verif.Lemmas.ConcRun
import Verif.Lemmas.ConcFrame
import Verif.Props.Linear
/-
Mutual exclusion: C142.
-/
namespace Verif.Props
open Spec Packet Code Artnet Conc

/-! ### C142 -/

/-- C142 as stated: dmxUpdateLoop is alone with the tables. While it goes through them no second goroutine does, and what
anybody else does leaves the tables and the buffers as they are. -/
def C142_statement : Prop := ∀ (P : Params) (s : Sys), Reach P s → ∀ (i : Nat) (t : Thread), s.threads[i]? = some t →
  inSection t = true →
    (∀ (j : Nat) (u : Thread), s.threads[j]? = some u → inSection u = true → j = i) ∧
    ∀ (a : Act) (s' : Sys), s.exec P a = some s' → (∀ c, a ≠ .run i c) → s'.ctrl = s.ctrl

/-- Stop returns while the update loop is about to send a datagram of a tick, and the next Start makes new tables without
taking the lock. -/
def takenAway : List Act := sampleDiscover ++ [.call fullOn ⟨0, 1⟩, .run 7 .next] ++ (sampleTick [⟨0, 1⟩]).take 6 ++
  [.stop, .stopStep, .stopStep, .stopStep]

theorem C142_false : ¬ C142_statement := by
  intro h
  have hw : after sampleController takenAway (fun s => (match s.threads[4]? with | some t => inSection t | none => false) &&
      s.ctrl.output.length == 1 && (match s.exec sampleController .start with
        | some s' => s'.ctrl.output.length == 0 | none => false)) = true := by decide +kernel
  obtain ⟨s, hr, _, hs⟩ := after_reach hw
  simp only [Bool.and_eq_true, beq_iff_eq] at hs
  obtain ⟨⟨h1, h2⟩, h3⟩ := hs
  split at h1
  case h_2 => cases h1
  rename_i t ht
  split at h3
  case h_2 => cases h3
  rename_i s' hx
  have := (h _ s hr 4 t ht h1).2 _ s' hx nofun
  rw [this, h2] at h3
  cases h3

theorem holder_section (t : Thread) : (holder t).isSome = inSection t := by cases t <;> rfl

theorem exec_ctrl {P : Params} {s s' : Sys} {a : Act} (h : s.exec P a = some s') (hr : ∀ i c, a ≠ .run i c)
    (ha : a ≠ .start) : s'.ctrl = s.ctrl := by
  unfold Sys.exec at h
  split at h
  · cases h
  · cases a with
    | start => exact absurd rfl ha
    | run i c => exact absurd rfl (hr i c)
    | listen ok =>
      dsimp only at h
      split at h
      · cases h
      · split at h <;> cases h <;> rfl
    | stop =>
      dsimp only at h
      split at h
      · cases h
      · split at h <;> cases h <;> rfl
    | stopStep =>
      dsimp only at h
      repeat' split at h
      all_goals first | cases h; done | (cases h; rfl)
    | register o c =>
      dsimp only at h
      repeat' split at h
      all_goals first | cases h; done | (cases h; rfl)
    | deregister o =>
      dsimp only at h
      repeat' split at h
      all_goals first | cases h; done | (cases h; rfl)
    | call d x =>
      dsimp only at h
      split at h
      · cases h; rfl
      · cases h

/-- Which goroutines change the tables: the one in the critical section, and those that find the lock free. -/
theorem C142_writers {P : Params} {s s' : Sys} {i : Nat} {t : Thread} {c : Choice} (ht : s.threads[i]? = some t)
    (hx : s.exec P (.run i c) = some s') (hn : s'.ctrl ≠ s.ctrl) :
    inSection t = true ∨ (takesLock t = true ∧ s.lock = false) := by
  have hcr : s.crashed = none := (exec_Step hx).1
  rw [exec_run hcr ht] at hx
  have hs := step_Run hx
  cases hs
  case gc hl => exact .inr ⟨rfl, hl⟩
  case reply hi hl => exact .inr ⟨rfl, hl⟩
  case sendDMX hl => exact .inr ⟨rfl, hl⟩
  case tickAt => exact .inl rfl
  all_goals exact absurd rfl hn

/-- No goroutine assigns the fields that the goroutines read without a lock: only the life cycle calls do. -/
theorem C142_readonly {P : Params} {s s' : Sys} {i : Nat} {c : Choice} (hx : s.exec P (.run i c) = some s') :
    s'.callbacks = s.callbacks ∧ s'.shutdown = s.shutdown ∧ s'.cur = s.cur ∧ s'.conn = s.conn ∧ s'.conns = s.conns ∧
    s'.ccur = s.ccur ∧ s'.cdown = s.cdown ∧ s'.tickers = s.tickers ∧ s'.shutdownErr = s.shutdownErr := by
  have hcr : s.crashed = none := (exec_Step hx).1
  cases ht : s.threads[i]? with
  | none =>
    unfold Sys.exec at hx
    rw [hcr] at hx
    simp [ht] at hx
  | some t =>
    rw [exec_run hcr ht] at hx
    have f := step_frame hx
    exact ⟨f.callbacks, f.shutdown, f.cur, f.conn, f.conns, f.ccur, f.cdown, f.tickers, f.shutdownErr⟩

/-- C142 as far as it holds: nobody but Start disturbs the update loop, whatever the sessions; and Start does not when it
waits for the goroutines of the session before. -/
theorem C142_partial {P : Params} {s : Sys} (h : Reach P s) {i : Nat} {t : Thread} (ht : s.threads[i]? = some t)
    (hi : inSection t = true) :
    (∀ (j : Nat) (u : Thread), s.threads[j]? = some u → inSection u = true → j = i) ∧
    ∀ (a : Act) (s' : Sys), s.exec P a = some s' → (∀ c, a ≠ .run i c) →
      (a = .start → ∀ t ∈ s.threads, t.idle = true) → s'.ctrl = s.ctrl := by
  have hv := lin_inv h
  have hone : ∀ (j : Nat) (u : Thread), s.threads[j]? = some u → inSection u = true → j = i := fun j u hj hu =>
    hv.only hj ht (by rw [holder_section]; exact hu) (by rw [holder_section]; exact hi)
  refine ⟨hone, fun a s' hx ha hst => ?_⟩
  by_cases has : a = .start
  · have := hst has t (List.mem_of_getElem? ht)
    cases t <;> first | (cases hi; done) | (cases this; done)
  · by_cases har : ∃ j c, a = .run j c
    · obtain ⟨j, c, rfl⟩ := har
      cases hu : s.threads[j]? with
      | none =>
        have hcr := (exec_Step hx).1
        unfold Sys.exec at hx
        rw [hcr] at hx
        simp [hu] at hx
      | some u =>
        by_cases hn : s'.ctrl = s.ctrl
        · exact hn
        · rcases C142_writers hu hx hn with hw | ⟨_, hl⟩
          · have := hone j u hu hw
            subst this
            exact absurd rfl (ha c)
          · have := hv.nobody hl ht
            have hh := holder_section t
            rw [this, hi] at hh
            cases hh
    · exact exec_ctrl hx (fun j c e => har ⟨j, c, e⟩) has

/-- What Start of a controller changes: the two routing tables become empty; the known nodes, their buffers and their
sequence numbers stay. -/
theorem C142_start {P : Params} {s s' : Sys} (hx : s.exec P .start = some s') :
    s'.ctrl.heap = s.ctrl.heap ∧ s'.ctrl.nodes = s.ctrl.nodes ∧ s'.ctrl.next = s.ctrl.next ∧
    s'.ctrl.maxFPS = s.ctrl.maxFPS ∧
    s'.ctrl.output = (if P.controller then [] else s.ctrl.output) ∧
    s'.ctrl.input = (if P.controller then [] else s.ctrl.input) := by
  unfold Sys.exec at hx
  split at hx
  · cases hx
  · dsimp only at hx
    split at hx
    · cases hx
    · have : (if P.controller = true then s.resetTables else s).ctrl =
          { s.ctrl with output := if P.controller then [] else s.ctrl.output
                        input := if P.controller then [] else s.ctrl.input } := by
        split <;> rfl
      have hc : s'.ctrl = (if P.controller = true then s.resetTables else s).ctrl := by
        split at hx <;> cases hx <;> rfl
      rw [hc, this]
      exact ⟨rfl, rfl, rfl, rfl, rfl, rfl⟩

/-- The hypotheses of `C142_partial` hold while a caller of SendDMXToAddress waits for the lock; the caller cannot go on. -/
example : after sampleController (sampleDiscover ++ [.call fullOn ⟨0, 1⟩, .run 7 .next] ++ (sampleTick [⟨0, 1⟩]).take 6 ++
    [.call fullOn ⟨0, 1⟩]) (fun s => (match s.threads[4]? with | some t => inSection t | none => false) &&
      (match s.threads[8]? with | some t => takesLock t | none => false) &&
      (s.exec sampleController (.run 8 .next)).isNone && (s.exec sampleController (.run 4 .next)).isSome &&
      (s.exec sampleController .stop).isSome) = true := by decide +kernel

end Verif.Props
