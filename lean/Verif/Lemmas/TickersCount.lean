import Verif.Lemmas.TickersRate
import Verif.Lemmas.ConcFrame
/-
How many tickers there are, and how many ticks of dmxUpdateLoop.
-/
namespace Verif.Conc
open Packet Code Artnet Spec

/-- dmxUpdateLoops that have no ticker yet. -/
def wNew (q : Clockwork) (s : Sys) : Nat := if q = .update then total wInit s.threads else 0

theorem halt_len (t : Timed) (b : Bool) (q r : Clockwork) (k : Option Nat) :
    ((t.halt b q k).tickers r).length = (t.tickers r).length := by
  unfold Timed.halt
  split
  · rfl
  · simp only [Timed.put]
    split
    · subst r; simp
    · rfl

theorem take_len {t t' : Timed} {q : Clockwork} {k : Option Nat} (h : t.take q k = some t') (r : Clockwork) :
    (t'.tickers r).length = (t.tickers r).length := by
  obtain ⟨j, x, rfl, hx, ht, rfl⟩ := take_eq h
  simp only [Timed.put]
  split
  · subst r; simp
  · rfl

theorem goroutines_init (P : Params) : total wInit P.goroutines = if P.controller then 1 else 0 := by
  simp only [Params.goroutines]
  split <;> simp [wInit]

theorem goroutines_lock (P : Params) : total wLock P.goroutines = 0 := by
  simp only [Params.goroutines]
  split <;> simp [wLock]

theorem total_zero {f : Thread → Nat} {l : List Thread} (h : ∀ x ∈ l, f x = 0) : total f l = 0 := by
  induction l with
  | nil => rfl
  | cons a l ih => simp [h a List.mem_cons_self, ih fun x hx => h x (List.mem_cons_of_mem _ hx)]

/-- Other actions than those of the goroutines. -/
theorem exec_still {P : Params} {s s' : Sys} {a : Act} (h : s.exec P a = some s') (hr : ∀ i c, a ≠ .run i c) :
    (a = .listen true ∧ s'.conns.length = s.conns.length + 1 ∧ s'.threads = s.threads ++ P.goroutines ∧ s'.hist = s.hist) ∨
    (a ≠ .listen true ∧ s'.conns.length = s.conns.length ∧ (∃ ts, s'.threads = s.threads ++ ts ∧ ∀ x ∈ ts, ∃ d a, x = .caller d a) ∧
      s'.hist.countP isTick = s.hist.countP isTick) := by
  have hcr := (exec_Step h).1
  unfold Sys.exec at h
  rw [hcr, if_neg (by simp)] at h
  cases a with
  | run i c => exact absurd rfl (hr i c)
  | listen ok =>
    simp only at h
    split at h
    · cases h
    · split at h <;> cases h
      · rename_i hk
        subst hk
        exact .inl ⟨rfl, by simp, rfl, rfl⟩
      · rename_i hk
        exact .inr ⟨by simp [hk], rfl, ⟨[], by simp, by simp⟩, rfl⟩
  | start =>
    right
    refine ⟨nofun, ?_⟩
    simp only at h
    split at h
    · cases h
    · split at h <;> cases h <;> cases P.controller <;>
        simp [Sys.panic, Sys.makeChannels, Sys.resetTables, List.countP_append, isTick]
  | stop =>
    right
    refine ⟨nofun, ?_⟩
    simp only at h
    split at h
    · cases h
    · split at h <;> cases h <;> simp [Sys.panic]
  | stopStep =>
    right
    refine ⟨nofun, ?_⟩
    have hcl : s.closeConn.length = s.conns.length := by
      simp only [Sys.closeConn]; split <;> simp
    simp only at h
    split at h
    · split at h
      · cases h; simp [Sys.panic]
      · split at h
        · cases h; simp [Sys.panic]
        · split at h <;> cases h <;> simp [Sys.panic]
    · split at h <;> cases h <;> simp [hcl]
    · split at h
      · cases h; simp [Sys.panic]
      · split at h <;> cases h <;> simp [Sys.panic]
    · cases h
  | register o f =>
    right
    refine ⟨nofun, ?_⟩
    simp only at h
    split at h
    · cases h
    · split at h <;> cases h <;> simp
  | deregister o =>
    right
    refine ⟨nofun, ?_⟩
    simp only at h
    split at h
    · cases h
    · split at h <;> cases h <;> simp
  | call d a =>
    right
    refine ⟨nofun, ?_⟩
    simp only at h
    split at h <;> cases h
    exact ⟨rfl, ⟨_, rfl, by simp⟩, rfl⟩

theorem run_step {P : Params} {s s' : Sys} {i : Nat} {c : Choice} (h : s.exec P (.run i c) = some s') :
    ∃ t, s.threads[i]? = some t ∧ s.step P i t c = some s' := by
  have hcr := (exec_Step h).1
  cases ht : s.threads[i]? with
  | none =>
    unfold Sys.exec at h
    rw [hcr, if_neg (by simp)] at h
    simp only [ht] at h
    cases h
  | some t => exact ⟨t, rfl, by rwa [exec_run hcr ht] at h⟩

theorem exec_count {b : Bool} {P : Params} {t t' : Timed} {a : TimedAct} (h : t.exec b P a = some t') (q : Clockwork)
    (hi : (t.tickers q).length + wNew q t.sys ≤ t.sys.conns.length) :
    (t'.tickers q).length + wNew q t'.sys ≤ t'.sys.conns.length := by
  unfold Timed.exec at h
  split at h
  · split at h
    · cases h
    · split at h
      · cases h
        refine Nat.le_trans (Nat.le_of_eq ?_) hi
        simp only [Timed.put]
        split
        · subst q; simp
        · rfl
      · cases h
  · cases h; exact hi
  · rename_i a
    split at h
    · cases h
    rename_i s hs
    obtain ⟨u, hu, rfl⟩ := Option.map_eq_some_iff.mp h
    show (u.tickers q).length + wNew q s ≤ s.conns.length
    by_cases hr : ∃ i c, a = .run i c
    · obtain ⟨i, c, rfl⟩ := hr
      obtain ⟨th, ht, hst⟩ := run_step hs
      obtain ⟨t', ts, h1, hf, h2⟩ := step_next ht hst
      have hconn := (step_frame hst).conns
      have hts : total wInit ts = 0 := total_zero fun x hx => (h2 x hx).2.2.1
      have hset := total_set wInit ht t'
      have hle : wInit t' ≤ wInit th := by
        have := hf.init
        simp only [wInit]
        split
        · rw [if_pos (this ‹_›)]; exact Nat.le_refl _
        · exact Nat.zero_le _
      have hN : wNew q s + (if q = .update then wInit th - wInit t' else 0) = wNew q t.sys := by
        simp only [wNew]
        split
        · rw [h1, total_append, hts]; omega
        · rfl
      rw [hconn]
      simp only [Timed.follow, ht] at hu
      split at hu
      · split at hu
        · cases hu; show (t.tickers q).length + _ ≤ _; omega
        · cases hu
      · rw [take_len hu]; omega
      · rw [take_len hu]; omega
      · rename_i c _ _ he
        cases he
        cases c <;> simp only [Sys.step] at hst <;> first | (cases hst; done) | skip
        split at hst
        · rename_i hd
          simp only [hd] at hu
          cases hu
          omega
        · rename_i hd
          simp only [hd] at hu
          cases hu
          cases hst
          have : t' = .duTop := by
            have h1 : (t.sys.threads.set i .duTop)[i]? = (t.sys.threads.set i t' ++ ts)[i]? := by rw [← h1]; rfl
            have hlt := (List.getElem?_eq_some_iff.mp ht).1
            rw [List.getElem?_append_left (by simpa using hlt)] at h1
            simpa [hlt] using h1.symm
          subst this
          cases q
          · exact hi
          · exact hi
          · simp only [wInit] at hN
            simp [Timed.make, Timed.put] at hN ⊢
            omega
      · rw [take_len hu]; omega
      · cases hu; omega
    · have ho := exec_still hs fun i c he => hr ⟨i, c, he⟩
      rcases ho with ⟨rfl, h1, h2, _⟩ | ⟨h0, h1, ⟨ts, h2, h3⟩, _⟩
      · have hN : wNew q s ≤ wNew q t.sys + if q = .update ∧ P.controller then 1 else 0 := by
          simp only [wNew]
          split
          · rw [h2, total_append, goroutines_init]; simp_all
          · simp
        simp only [Timed.follow] at hu
        split at hu <;> cases hu
        · have hc : P.controller = true := by simpa using ‹(true && P.controller) = true›
          cases q <;> simp [Timed.make, Timed.put, hc] at hN ⊢ <;> omega
        · rw [h1]
          split at hN <;> omega
      · have hN : wNew q s = wNew q t.sys := by
          simp only [wNew]
          have : total wInit ts = 0 := total_zero fun x hx => by obtain ⟨d, a, rfl⟩ := h3 x hx; rfl
          rw [h2, total_append, this]
          rfl
        have hl : (u.tickers q).length = (t.tickers q).length := by
          unfold Timed.follow at hu
          split at hu
          · rename_i ok
            have : ok = false := by cases ok <;> simp_all
            subst this
            cases hu; rfl
          · split at hu <;> cases hu
            · rw [halt_len, halt_len]
            · rfl
          · exact absurd ⟨_, _, rfl⟩ hr
          · cases hu; rfl
        omega

theorem execs_count {b : Bool} {P : Params} {as : List TimedAct} {t t' : Timed} (h : t.execs b P as = some t') (q : Clockwork)
    (hi : (t.tickers q).length + wNew q t.sys ≤ t.sys.conns.length) :
    (t'.tickers q).length + wNew q t'.sys ≤ t'.sys.conns.length := by
  induction as generalizing t with
  | nil => cases h; exact hi
  | cons a as ih =>
    simp only [Timed.execs] at h
    cases hx : t.exec b P a with
    | none => rw [hx] at h; cases h
    | some t1 => rw [hx] at h; exact ih h (exec_count hx q hi)

/-- A tick of dmxUpdateLoop takes a tick of its ticker. -/
theorem exec_lock {P : Params} {s s' : Sys} {a : Act} (h : s.exec P a = some s') :
    s'.hist.countP isTick + total wLock s'.threads ≤ s.hist.countP isTick + total wLock s.threads +
      if receives s a = some .update then 1 else 0 := by
  by_cases hr : ∃ i c, a = .run i c
  · obtain ⟨i, c, rfl⟩ := hr
    obtain ⟨th, ht, hst⟩ := run_step h
    obtain ⟨t', ts, h1, hf, h2⟩ := step_next ht hst
    have hts : total wLock ts = 0 := total_zero fun x hx => (h2 x hx).2.2.2
    have hset := total_set wLock ht t'
    have hl := hf.lock
    have hg : gets th c = if receives s (.run i c) = some .update then 1 else 0 := by
      cases c <;> simp only [receives, ht] <;> cases th <;> simp [gets]
    rw [h1, total_append, hts]
    omega
  · rcases exec_still h fun i c he => hr ⟨i, c, he⟩ with ⟨rfl, h1, h2, h3⟩ | ⟨h0, h1, ⟨ts, h2, h3⟩, h4⟩
    · rw [h2, h3, total_append, goroutines_lock]; omega
    · have : total wLock ts = 0 := total_zero fun x hx => by obtain ⟨d, a, rfl⟩ := h3 x hx; rfl
      rw [h2, h4, total_append, this]; omega

theorem execs_lock {P : Params} {as : List Act} {s s' : Sys} (h : s.execs P as = some s') :
    s'.hist.countP isTick + total wLock s'.threads ≤ s.hist.countP isTick + total wLock s.threads + ticksReceived P .update s as := by
  induction as generalizing s with
  | nil => cases h; exact Nat.le_refl _
  | cons a as ih =>
    simp only [Sys.execs] at h
    cases hx : s.exec P a with
    | none => rw [hx] at h; cases h
    | some s1 =>
      rw [hx] at h
      have h1 := ih h
      have h2 := exec_lock hx
      simp only [ticksReceived, hx]
      omega

theorem received_polls {P : Params} (as : List Act) (s : Sys) : ticksReceived P .poll s as = pollTicks P s as := by
  induction as generalizing s with
  | nil => rfl
  | cons a as ih =>
    simp only [ticksReceived, pollTicks]
    congr 1
    · have : receives s a = some .poll ↔ pollFires s a = true := by
        cases a with
        | run i c =>
          cases ht : s.threads[i]? with
          | none => cases c <;> simp [receives, pollFires, ht]
          | some t => cases c <;> cases t <;> simp [receives, pollFires, ht]
        | _ => simp [receives, pollFires]
      by_cases h : pollFires s a = true
      · rw [if_pos h, if_pos (this.mpr h)]
      · rw [if_neg h, if_neg (fun h' => h (this.mp h'))]
    · cases s.exec P a with
      | none => rfl
      | some s' => exact ih s'

end Verif.Conc
