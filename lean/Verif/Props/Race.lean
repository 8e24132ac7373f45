import Verif.Props.Life
import Verif.Spec.Race
/-
Data races between the goroutines and the life cycle calls: C78.
-/
namespace Verif.Props
open Spec Packet Code Artnet Conc

/-! ### C78 -/

/-- C78 as stated: no call of Start, RegisterCallback or DeregisterCallback is in a data race with a
goroutine. -/
def C78_statement : Prop := ∀ (P : Params) (s : Sys) (a : Act), Reach P s → ¬ Race P s a

/-- RegisterCallback after Stop has returned, while a packet is about to be handled: a concurrent write and
read of the map of call-backs. -/
theorem C78_callbacks : ∃ s, Reach sampleNode s ∧ s.phase = .stopped ∧ s.control = .idle ∧
    Race sampleNode s (.register OpCode.opDMX (.user 0)) := by
  have h1 : after sampleNode (sampleStart ++ sampleRead 3 ⟨[2, 0, 0, 2], 6454⟩ samplePoll ++
      [.stop, .stopStep, .stopStep]) (fun s => s.phase == .stopped && s.control == .idle && s.shutdown &&
        (s.exec sampleNode (.register OpCode.opDMX (.user 0))).isSome &&
        (match s.threads[4]? with | some (Thread.hStart _) => true | _ => false)) = true := by decide +kernel
  obtain ⟨s, hr, _, hs⟩ := after_reach h1
  simp only [Bool.and_eq_true, beq_iff_eq] at hs
  obtain ⟨⟨⟨⟨h1, h2⟩, h3⟩, h4⟩, h5⟩ := hs
  obtain ⟨s', he⟩ := Option.isSome_iff_exists.mp h4
  split at h5
  · rename_i p ht
    exact ⟨s, hr, h1, h2, s', .callbacks, 4, _, he, by simp [Act.assigns, h3], ht, by simp [Thread.uses]⟩
  · cases h5

/-- Start directly after Stop has returned: the old sendLoop is about to read the field that Start assigns. -/
theorem C78_restart : ∃ s, Reach sampleNode s ∧ s.phase = .stopped ∧ s.control = .idle ∧ Race sampleNode s .start := by
  have h1 : after sampleNode [.start, .listen true, .stop, .stopStep, .stopStep]
      (fun s => s.phase == .stopped && s.control == .idle && (s.exec sampleNode .start).isSome &&
        decide (Field.channels ∈ Act.assigns sampleNode s .start) && s.threads[2]? == some .slTop) = true := by
    decide +kernel
  obtain ⟨s, hr, _, hs⟩ := after_reach h1
  simp only [Bool.and_eq_true, beq_iff_eq] at hs
  obtain ⟨⟨⟨⟨h1, h2⟩, h3⟩, h4⟩, h5⟩ := hs
  obtain ⟨s', he⟩ := Option.isSome_iff_exists.mp h3
  exact ⟨s, hr, h1, h2, s', .channels, 2, _, he, of_decide_eq_true h4, h5, by simp [Thread.uses]⟩

theorem C78_false : ¬ C78_statement := by
  intro h
  obtain ⟨s, hr, _, _, hx⟩ := C78_callbacks
  exact h _ s _ hr hx

/-- In Start, goroutines of earlier sessions have returned; only callers of SendDMXToAddress are there. -/
def Listening (s : Sys) : Prop :=
  s.control = .listening → ∀ t ∈ s.threads, t = .done ∨ ∃ d a, t = .caller d a

theorem listening_exec {P : Params} {s s' : Sys} {a : Act} (hi : Listening s) (he : s.exec P a = some s')
    (ho : Act.assigns P s a ≠ [] → s.control = .idle → ∀ t ∈ s.threads, t = .done) : Listening s' := by
  have hcr := (exec_Step he).1
  intro hl t ht
  cases a with
  | start =>
    have hth : s'.threads = s.threads := by
      unfold Sys.exec at he
      rw [hcr, if_neg (by simp)] at he
      dsimp only at he
      split at he
      · cases he
      · split at he <;> cases he <;> simp only [Sys.panic, Sys.makeChannels, Sys.resetTables] <;> split <;> rfl
    have hidle : s.control = .idle := by
      unfold Sys.exec at he
      rw [hcr, if_neg (by simp)] at he
      dsimp only at he
      split at he
      · cases he
      · rename_i h; exact Decidable.not_not.mp h
    have hne : Act.assigns P s .start ≠ [] := by
      unfold Sys.exec at he
      rw [hcr, if_neg (by simp)] at he
      dsimp only at he
      rw [if_neg (by simp [hidle])] at he
      split at he
      · cases he
        simp only [Sys.panic, Sys.resetTables] at hl
        split at hl <;> simp_all
      · cases he
        simp only [Sys.resetTables] at hl
        split at hl <;> simp_all
      · rename_i hv
        simp [Act.assigns, hv]
    rw [hth] at ht
    exact .inl (ho hne hidle t ht)
  | listen ok =>
    unfold Sys.exec at he
    rw [hcr, if_neg (by simp)] at he
    dsimp only at he
    split at he
    · cases he
    · split at he <;> cases he <;> cases hl
  | run i c =>
    have hfr : Frame s s' := by
      unfold Sys.exec at he
      split at he
      · cases he
      · dsimp only at he
        split at he
        · cases he
        · exact step_frame he
    have hall := hi (hfr.control ▸ hl)
    unfold Sys.exec at he
    rw [hcr, if_neg (by simp)] at he
    dsimp only at he
    split at he
    · cases he
    · rename_i u hu
      rcases hall u (List.mem_of_getElem? hu) with rfl | ⟨d, a, rfl⟩
      · simp [Sys.step] at he
      · cases c <;> simp only [Sys.step] at he <;> try cases he
        split at he
        · cases he
        · cases he
          simp only [Sys.goto] at ht
          rcases List.mem_or_eq_of_mem_set ht with h | h
          · exact hall t h
          · exact .inl h
  | call d a =>
    unfold Sys.exec at he
    rw [hcr, if_neg (by simp)] at he
    dsimp only at he
    split at he
    · cases he
      rcases List.mem_append.mp ht with h | h
      · exact hi hl t h
      · exact .inr ⟨d, a, List.mem_singleton.mp h⟩
    · cases he
  | stop | stopStep | register | deregister =>
    unfold Sys.exec at he
    rw [hcr, if_neg (by simp)] at he
    dsimp only at he
    repeat' split at he
    all_goals first
      | (cases he; done)
      | (cases he; cases hl; done)
      | (cases he; exact hi hl t ht)

/-- C78 as far as it holds: if Start, RegisterCallback and DeregisterCallback are called only when the call is
refused or all goroutines of earlier sessions have returned, there is no data race. -/
theorem C78_partial {P : Params} {as : List Act} {a : Act} {s : Sys} (h : (Sys.init P).execs P as = some s)
    (ho : Orderly P (Sys.init P) (as ++ [a])) : ¬ Race P s a := by
  have key : ∀ as s0, Listening s0 → s0.execs P as = some s → Orderly P s0 (as ++ [a]) →
      Listening s ∧ (Act.assigns P s a ≠ [] → s.control = .idle → ∀ t ∈ s.threads, t = .done) := by
    intro as
    induction as with
    | nil =>
      intro s0 hi he ho
      cases he
      exact ⟨hi, ho.1⟩
    | cons b as ih =>
      intro s0 hi he ho
      simp only [Sys.execs] at he
      cases hx : s0.exec P b with
      | none => rw [hx] at he; cases he
      | some s1 =>
        rw [hx] at he
        exact ih s1 (listening_exec hi hx ho.1) he (ho.2 s1 hx)
  obtain ⟨hl, hq⟩ := key as _ (by intro hc; cases hc) h ho
  rintro ⟨s', f, i, t, he, hf, ht, hu⟩
  have hm := List.mem_of_getElem? ht
  have hne : Act.assigns P s a ≠ [] := by intro h0; rw [h0] at hf; cases hf
  have hcr := (exec_Step he).1
  have hidle : s.control = .idle → False := by
    intro hc
    rw [hq hne hc t hm] at hu
    cases hu
  cases a with
  | listen ok =>
    cases ok with
    | false => exact hne rfl
    | true =>
      have hc : s.control = .listening := by
        unfold Sys.exec at he
        rw [hcr, if_neg (by simp)] at he
        dsimp only at he
        split at he
        · cases he
        · rename_i h; exact Decidable.not_not.mp h
      rcases hl hc t hm with rfl | ⟨d, a, rfl⟩
      · cases hu
      · simp only [Act.assigns, List.mem_singleton] at hf
        subst hf
        simp [Thread.uses] at hu
  | start | register | deregister =>
    unfold Sys.exec at he
    rw [hcr, if_neg (by simp)] at he
    dsimp only at he
    split at he
    · cases he
    · rename_i h; exact hidle (Decidable.not_not.mp h)
  | stop | stopStep | call | run => exact hne rfl

/-- A node that is stopped, whose goroutines then return, and that is started again, is used in order. -/
example : after sampleNode ([.register OpCode.opDMX (.user 0), .start, .listen true, .run 0 .next, .run 0 .next,
      .run 1 .next, .run 1 .next, .run 2 .next, .run 3 .next, .register OpCode.opDMX (.user 1), .stop, .stopStep,
      .stopStep, .run 0 .down, .run 1 .down, .run 2 .down, .run 3 .fail, .run 3 .next])
    (fun s => s.phase == .stopped && s.control == .idle && s.threads.all (· == .done) &&
      (s.exec sampleNode .start).isSome && decide (Act.assigns sampleNode s .start = [.channels])) = true := by
  decide +kernel

end Verif.Props
