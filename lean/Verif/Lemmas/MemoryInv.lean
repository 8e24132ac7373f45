import Verif.Lemmas.Memory
/-
What happens before what: the events of the goroutines.
-/
namespace Verif.Conc
open Packet Code Artnet Spec

/-- The goroutine of a life cycle call sees what it has done, and so does every goroutine; what goroutines do with the tables
happens before whoever has nodeLock, and what they do with `shutdown` before whoever has shutdownLock. -/
structure Seen (P : Params) (m : Memory) : Prop where
  reach : Reach P m.sys
  own : ∀ (k j : Nat) ts, m.events[k]? = some (some j, ts) → m.seen (some j) k = true ∧ j < m.sys.threads.length
  ctl : ∀ (k : Nat) ts, m.events[k]? = some (none, ts) → m.seen none k = true
  writes : ∀ (k j : Nat) ts x, m.events[k]? = some (some j, ts) → (x, true) ∈ ts → guarded x = true
  shut : ∀ (k j : Nat) ts v, m.events[k]? = some (some j, ts) → (Loc.shutdown, v) ∈ ts → m.held .shutdownLock k = true
  free : m.sys.crashed = none → ∀ (k j : Nat) ts x v, m.events[k]? = some (some j, ts) → (x, v) ∈ ts → guarded x = true →
    m.sys.lock = false → m.held .nodeLock k = true
  inside : m.sys.crashed = none → ∀ (k j : Nat) ts x v, m.events[k]? = some (some j, ts) → (x, v) ∈ ts → guarded x = true →
    ∀ (h : Nat) t, m.sys.threads[h]? = some t → inSection t = true → m.seen (some h) k = true

theorem seen_init (P : Params) : Seen P (Memory.init P) := by
  refine ⟨⟨[], rfl⟩, ?_, ?_, ?_, ?_, ?_, ?_⟩ <;> intros <;> simp_all [Memory.init]

theorem reach_exec {P : Params} {s s' : Sys} {a : Act} (h : Reach P s) (hx : s.exec P a = some s') : Reach P s' := by
  obtain ⟨as, has⟩ := h
  exact ⟨as ++ [a], by rw [execs_append, has]; simp [Sys.execs, hx]⟩

theorem run_thread {P : Params} {s s' : Sys} {i : Nat} {c : Choice} (hx : s.exec P (.run i c) = some s') :
    ∃ t, s.threads[i]? = some t ∧ Run P s i t c s' := by
  have hcr : s.crashed = none := (exec_Step hx).1
  cases ht : s.threads[i]? with
  | none =>
    unfold Sys.exec at hx
    rw [hcr] at hx
    simp [ht] at hx
  | some t =>
    rw [exec_run hcr ht] at hx
    exact ⟨t, rfl, step_Run hx⟩

theorem touches_run {P : Params} {s : Sys} {i : Nat} {c : Choice} {t : Thread} (ht : s.threads[i]? = some t) {x : Loc} {v : Bool}
    (h : (x, v) ∈ s.touches P (.run i c)) : (x, v) ∈ t.touches ∨ (x = .log ∧ v = false) := by
  simp only [Sys.touches, ht, List.mem_append] at h
  rcases h with h | h
  · exact .inl h
  · split at h
    · cases h
    · simp at h; exact .inr h

theorem thread_acquires {m : Memory} {i : Nat} {c : Choice} {t : Thread} (ht : m.sys.threads[i]? = some t) {o : Obj}
    (h : o ∈ t.acquires c) : o ∈ m.acquires (.run i c) := by
  simp only [Memory.acquires, ht, List.mem_append]
  exact .inr h

theorem thread_releases {m : Memory} {i : Nat} {c : Choice} {t : Thread} (ht : m.sys.threads[i]? = some t) {o : Obj}
    (h : o ∈ t.releases) : o ∈ m.releases (.run i c) := by
  simp only [Memory.releases, ht, List.mem_append]
  exact .inr h

theorem exec_length {P : Params} {s s' : Sys} {a : Act} (h : s.exec P a = some s') :
    s.threads.length ≤ s'.threads.length := by
  by_cases ha : ∃ i c, a = .run i c
  · obtain ⟨i, c, rfl⟩ := ha
    obtain ⟨t, ht, hr⟩ := run_thread h
    cases hc : s'.crashed with
    | none =>
      obtain ⟨t', ts, h1, _⟩ := run_locks ht hr hc
      rw [h1]; simp
    | some f =>
      have h1 : s.crashed = none := (exec_Step h).1
      cases hr <;> first | (simp [Sys.panic]; done) | (simp [Sys.goto, Sys.setCh] at hc ⊢; done) | (simp_all [Sys.goto, Sys.setCh])
  · obtain ⟨ts, h1, _⟩ := act_locks (fun i c e => ha ⟨i, c, e⟩) h
    rw [h1]; simp

theorem only_section {P : Params} {s : Sys} (h : Reach P s) {i j : Nat} {t u : Thread} (hi : s.threads[i]? = some t)
    (hj : s.threads[j]? = some u) (ht : inSection t = true) (hu : inSection u = true) : j = i :=
  (lin_inv h).only hj hi (by rw [inSection_holder]; exact hu) (by rw [inSection_holder]; exact ht)

theorem no_section {P : Params} {s : Sys} (h : Reach P s) (hl : s.lock = false) {i : Nat} {t : Thread}
    (hi : s.threads[i]? = some t) (ht : inSection t = true) : False := by
  have := (lin_inv h).nobody hl hi
  have hh := inSection_holder t
  rw [this, ht] at hh
  cases hh

theorem seen_exec {P : Params} {m m' : Memory} {a : Act} (hs : Seen P m) (h : m.exec P a = some m') : Seen P m' := by
  have hd := memory_does h
  have hlen := exec_length hd.sys
  have hcr : m.sys.crashed = none := (exec_Step hd.sys).1
  have hreach := reach_exec hs.reach hd.sys
  have split : ∀ {k : Nat} {w ts}, m'.events[k]? = some (w, ts) → m.events[k]? = some (w, ts) ∨
      (k = m.events.length ∧ w = a.who ∧ ts = m.sys.touches P a) := by
    intro k w ts hk
    rw [hd.events] at hk
    rcases append_event hk with hk | ⟨h1, h2⟩
    · exact .inl hk
    · cases h2; exact .inr ⟨h1, rfl, rfl⟩
  have who : ∀ {j : Nat}, some j = a.who → ∃ c, a = .run j c := by
    intro j hj
    cases a <;> simp [Act.who] at hj
    subst hj
    exact ⟨_, rfl⟩
  refine ⟨hreach, ?_, ?_, ?_, ?_, ?_, ?_⟩
  · intro k j ts hk
    rcases split hk with hk | ⟨rfl, hj, _⟩
    · obtain ⟨h1, h2⟩ := hs.own k j ts hk
      exact ⟨hd.grow _ _ (fun j' e => by cases e; exact h2) h1, by omega⟩
    · obtain ⟨c, rfl⟩ := who hj
      obtain ⟨t, ht, _⟩ := run_thread hd.sys
      have := (List.getElem?_eq_some_iff.mp ht).1
      exact ⟨hd.mine _ (.inr rfl), by omega⟩
  · intro k ts hk
    rcases split hk with hk | ⟨rfl, hj, _⟩
    · exact hd.grow _ _ (fun j e => by cases e) (hs.ctl k ts hk)
    · rw [hj]; exact hd.mine _ (.inr rfl)
  · intro k j ts x hk hx
    rcases split hk with hk | ⟨rfl, hj, rfl⟩
    · exact hs.writes k j ts x hk hx
    · obtain ⟨c, rfl⟩ := who hj
      obtain ⟨t, ht, _⟩ := run_thread hd.sys
      rcases touches_run ht hx with h1 | ⟨_, h1⟩
      · exact touches_write h1
      · cases h1
  · intro k j ts v hk hx
    rcases split hk with hk | ⟨rfl, hj, rfl⟩
    · exact hd.keep _ _ (hs.shut k j ts v hk hx)
    · obtain ⟨c, rfl⟩ := who hj
      obtain ⟨t, ht, _⟩ := run_thread hd.sys
      rcases touches_run ht hx with h1 | ⟨h1, _⟩
      · exact hd.release _ _ (thread_releases ht (touches_shutdown h1 c).2) (.inr rfl)
      · cases h1
  · intro hcr' k j ts x v hk hx hg hl
    rcases split hk with hk | ⟨rfl, hj, rfl⟩
    · by_cases hl0 : m.sys.lock = false
      · exact hd.keep _ _ (hs.free hcr k j ts x v hk hx hg hl0)
      · by_cases ha : ∃ i c, a = .run i c
        · obtain ⟨i, c, rfl⟩ := ha
          obtain ⟨t, ht, hr⟩ := run_thread hd.sys
          obtain ⟨t', ts', _, _, hlk⟩ := run_locks ht hr hcr'
          obtain ⟨h1, h2⟩ := hlk.leave hl (by simpa using hl0)
          exact hd.release _ _ (thread_releases ht h1) (.inl (before_seen (hs.inside hcr k j ts x v hk hx hg i t ht h2)))
        · obtain ⟨_, _, _, h1⟩ := act_locks (fun i c e => ha ⟨i, c, e⟩) hd.sys
          exact absurd (h1.symm.trans hl) hl0
    · obtain ⟨c, rfl⟩ := who hj
      obtain ⟨t, ht, hr⟩ := run_thread hd.sys
      obtain ⟨t', ts', _, _, hlk⟩ := run_locks ht hr hcr'
      rcases touches_run ht hx with h1 | ⟨rfl, _⟩
      · rcases hlk.touch x v h1 hg with ⟨_, _, ⟨_, h2⟩ | ⟨h2, _⟩⟩ | ⟨h2, _, h3⟩
        · exact hd.release _ _ (thread_releases ht h2) (.inr rfl)
        · rw [hl] at h2; cases h2
        · exact (no_section hs.reach (h3.symm.trans hl) ht h2).elim
      · cases hg
  · intro hcr' k j ts x v hk hx hg n u hn hu
    -- whoever is in the section was there before or enters now
    have hwas : (∃ u', m.sys.threads[n]? = some u' ∧ inSection u' = true) ∨
        ∃ c, a = .run n c ∧ m.sys.threads[n]? = some .duLock ∧ m.sys.lock = false := by
      by_cases ha : ∃ i c, a = .run i c
      · obtain ⟨i, c, rfl⟩ := ha
        obtain ⟨t, ht, hr⟩ := run_thread hd.sys
        obtain ⟨t', ts', h1, h2, hlk⟩ := run_locks ht hr hcr'
        rw [h1] at hn
        by_cases hlt : n < m.sys.threads.length
        · rw [List.getElem?_append_left (by simpa using hlt)] at hn
          by_cases hni : i = n
          · subst hni
            rw [List.getElem?_set_self hlt] at hn
            cases hn
            rcases hlk.enter hu with h3 | ⟨rfl, h3⟩
            · exact .inl ⟨t, ht, h3⟩
            · exact .inr ⟨c, rfl, ht, h3⟩
          · rw [List.getElem?_set_ne hni] at hn
            exact .inl ⟨u, hn, hu⟩
        · rw [List.getElem?_append_right (by simpa using hlt)] at hn
          rw [h2 u (List.mem_of_getElem? hn)] at hu
          cases hu
      · obtain ⟨ts', h1, h2, _⟩ := act_locks (fun i c e => ha ⟨i, c, e⟩) hd.sys
        rw [h1] at hn
        by_cases hlt : n < m.sys.threads.length
        · rw [List.getElem?_append_left hlt] at hn
          exact .inl ⟨u, hn, hu⟩
        · rw [List.getElem?_append_right (by omega)] at hn
          rw [h2 u (List.mem_of_getElem? hn)] at hu
          cases hu
    rcases split hk with hk | ⟨rfl, hj, rfl⟩
    · rcases hwas with ⟨u', h1, h2⟩ | ⟨c, rfl, h1, h2⟩
      · exact hd.grow _ _ (fun j' e => by cases e; exact (List.getElem?_eq_some_iff.mp h1).1)
          (hs.inside hcr k j ts x v hk hx hg n u' h1 h2)
      · exact hd.mine _ (.inl (before_held (thread_acquires h1 (by simp [Thread.acquires]))
          (hs.free hcr k j ts x v hk hx hg h2)))
    · obtain ⟨c, rfl⟩ := who hj
      obtain ⟨t, ht, hr⟩ := run_thread hd.sys
      obtain ⟨t', ts', h1, _, hlk⟩ := run_locks ht hr hcr'
      have hj' : m'.sys.threads[j]? = some t' := by
        have hlt := (List.getElem?_eq_some_iff.mp ht).1
        rw [h1, List.getElem?_append_left (by simpa using hlt), List.getElem?_set_self hlt]
      rcases touches_run ht hx with h2 | ⟨rfl, _⟩
      · have hin : inSection t' = true := by
          rcases hlk.touch x v h2 hg with ⟨_, _, ⟨h3, _⟩ | ⟨_, h3⟩⟩ | ⟨_, h3, _⟩
          · exact (no_section hreach h3 hn hu).elim
          · exact h3
          · exact h3
        have := only_section hreach hj' hn hin hu
        subst this
        exact hd.mine _ (.inr rfl)
      · cases hg

/-- A step that uses the tables does not panic. -/
theorem guarded_step {P : Params} {s s' : Sys} {i : Nat} {t : Thread} {c : Choice} {x : Loc} {v : Bool}
    (h : s.step P i t c = some s') (ht : (x, v) ∈ t.touches) (hx : guarded x = true) : s'.crashed = s.crashed := by
  cases t with
  | plGc | duLock | caller | plGot =>
    cases c <;> simp only [Sys.step] at h <;> first | (cases h; done) | skip
    all_goals
      repeat' split at h
      all_goals first | (cases h; done) | (have h := Option.some.inj h; subst h; rfl)
  | duTick pend rest now =>
    cases pend with
    | cons e p => simp [Thread.touches] at ht; obtain ⟨rfl, _⟩ := ht; cases hx
    | nil =>
      cases rest with
      | nil => cases ht
      | cons r l => cases c <;> simp [Sys.step] at h; subst h; rfl
  | _ => simp [Thread.touches] at ht <;> (try rcases ht with ⟨rfl, _⟩ | ⟨rfl, _⟩ | ⟨rfl, _⟩) <;>
      first | (cases hx; done) | (obtain ⟨rfl, _⟩ := ht; cases hx)

/-- Two goroutines that are not the one of the life cycle calls are not in a data race. -/
theorem seen_no_race {P : Params} {m m' : Memory} {i : Nat} {c : Choice} (hs : Seen P m) (h : m.exec P (.run i c) = some m')
    {k j : Nat} {ts : List (Loc × Bool)} {x : Loc} {v w : Bool}
    (hk : m.events[k]? = some (some j, ts)) (hx : (x, v) ∈ ts) (hy : (x, w) ∈ m.sys.touches P (.run i c))
    (hvw : v = true ∨ w = true) : m.before (.run i c) k = true := by
  have hd := memory_does h
  have hc0 : m.sys.crashed = none := (exec_Step hd.sys).1
  obtain ⟨t, ht, hr⟩ := run_thread hd.sys
  have hg : guarded x = true := by
    rcases hvw with rfl | rfl
    · exact hs.writes k j ts x hk hx
    · rcases touches_run ht hy with h1 | ⟨_, h1⟩
      · exact touches_write h1
      · cases h1
  rcases touches_run ht hy with h1 | ⟨rfl, _⟩
  · have hst := hd.sys
    rw [exec_run hc0 ht] at hst
    have hcr := (guarded_step hst h1 hg).trans hc0
    obtain ⟨t', ts', _, _, hlk⟩ := run_locks ht hr hcr
    rcases hlk.touch x w h1 hg with ⟨h2, h3, _⟩ | ⟨h2, _⟩
    · exact before_held (thread_acquires ht h3) (hs.free hc0 k j ts x v hk hx hg h2)
    · exact before_seen (hs.inside hc0 k j ts x v hk hx hg i t ht h2)
  · cases hg

end Verif.Conc
