import Verif.Lemmas.MemoryInv
/-
What happens before what: one session, and what the goroutine of the life cycle calls does not see.
-/
namespace Verif.Conc
open Packet Code Artnet Spec

theorem seen_execs {P : Params} {m m' : Memory} {as : List Act} (hs : Seen P m) (h : m.execs P as = some m') : Seen P m' := by
  induction as generalizing m with
  | nil => cases h; exact hs
  | cons a as ih =>
    simp only [Memory.execs] at h
    split at h
    · cases h
    · rename_i m1 h1
      exact ih (seen_exec hs h1) h

/-- Every goroutine has seen what the life cycle calls have written; `shutdown` may be written under its lock. -/
structure InSession (P : Params) (m : Memory) : Prop where
  seen : Seen P m
  idle : m.sys.control ≠ .listening
  control : ∀ (k : Nat) ts x v, m.events[k]? = some (none, ts) → (x, v) ∈ ts → v = true ∨ guarded x = true →
    (x = .shutdown ∧ m.held .shutdownLock k = true) ∨ ∀ h, h < m.sys.threads.length → m.seen (some h) k = true

/-- Calls that are made during a session. -/
def duringSession (s : Sys) (a : Act) : Prop :=
  a ≠ .start ∧ ∀ o h, a = .register o h ∨ a = .deregister o → s.shutdown = false

theorem during_cases {P : Params} {s s' : Sys} {a : Act} (ha : duringSession s a) (hc : s.control ≠ .listening)
    (h : s.exec P a = some s') : s'.control ≠ .listening ∧
      ((∃ i c, a = .run i c) ∨ (a.who = none ∧ ∀ x v, (x, v) ∈ s.touches P a → guarded x = false ∧
        (v = true → x = .shutdown ∧ a = .stop))) := by
  have h0 := h
  unfold Sys.exec at h
  split at h
  · cases h
  · cases a with
    | start => exact absurd rfl ha.1
    | register o f =>
      have hf := ha.2 o f (.inl rfl)
      dsimp only at h
      refine ⟨?_, .inr ⟨rfl, by simp [Sys.touches, hf, guarded]⟩⟩
      repeat' split at h
      all_goals first | cases h; done | (have h := Option.some.inj h; subst h; exact hc)
    | deregister o =>
      have hf := ha.2 o .nil (.inr rfl)
      dsimp only at h
      refine ⟨?_, .inr ⟨rfl, by simp [Sys.touches, hf, guarded]⟩⟩
      repeat' split at h
      all_goals first | cases h; done | (have h := Option.some.inj h; subst h; exact hc)
    | listen ok =>
      dsimp only at h
      cases h
    | run i c =>
      refine ⟨?_, .inl ⟨i, c, rfl⟩⟩
      dsimp only at h
      split at h
      · cases h
      · rw [(step_frame h).control]; exact hc
    | stop =>
      dsimp only at h
      refine ⟨?_, .inr ⟨rfl, ?_⟩⟩
      · repeat' split at h
        all_goals first | cases h; done | (have h := Option.some.inj h; subst h; first | exact hc | simp)
      · intro x v hx
        simp only [Sys.touches, List.mem_cons] at hx
        rcases hx with hx | hx
        · cases hx; exact ⟨rfl, fun _ => ⟨rfl, rfl⟩⟩
        · split at hx
          · simp at hx; obtain ⟨rfl, rfl⟩ := hx; exact ⟨rfl, by simp⟩
          · cases hx
    | stopStep =>
      dsimp only at h
      refine ⟨?_, .inr ⟨rfl, ?_⟩⟩
      · repeat' split at h
        all_goals first | cases h; done | (have h := Option.some.inj h; subst h; first | exact hc | simp)
      · intro x v hx
        simp only [Sys.touches] at hx
        split at hx <;> simp at hx
        · obtain ⟨rfl, rfl⟩ := hx; exact ⟨rfl, by simp⟩
        · obtain ⟨rfl, rfl⟩ := hx; exact ⟨rfl, by simp⟩
        · rcases hx with ⟨rfl, rfl⟩ | ⟨rfl, rfl⟩ <;> exact ⟨rfl, by simp⟩
    | call d x =>
      dsimp only at h
      split at h
      · cases h
        exact ⟨hc, .inr ⟨rfl, by simp [Sys.touches]⟩⟩
      · cases h

theorem session_exec {P : Params} {m m' : Memory} {a : Act} (hs : InSession P m) (ha : duringSession m.sys a)
    (h : m.exec P a = some m') : InSession P m' := by
  have hd := memory_does h
  obtain ⟨hc, hcase⟩ := during_cases ha hs.idle hd.sys
  refine ⟨seen_exec hs.seen h, hc, ?_⟩
  intro k ts x v hk hx hv
  rw [hd.events] at hk
  rcases append_event hk with hk | ⟨rfl, he⟩
  · rcases hs.control k ts x v hk hx hv with ⟨h1, h2⟩ | h1
    · exact .inl ⟨h1, hd.keep _ _ h2⟩
    · refine .inr fun n hn => ?_
      by_cases hlt : n < m.sys.threads.length
      · exact hd.grow _ _ (fun j e => by cases e; exact hlt) (h1 n hlt)
      · refine hd.fresh n k (by omega) hn (.inl (before_seen ?_))
        rcases hcase with ⟨i, c, rfl⟩ | ⟨hw, _⟩
        · obtain ⟨t, ht, _⟩ := run_thread hd.sys
          exact h1 i (List.getElem?_eq_some_iff.mp ht).1
        · rw [hw]; exact hs.seen.ctl k ts hk
  · simp only [Prod.mk.injEq] at he
    obtain ⟨he, rfl⟩ := he
    rcases hcase with ⟨i, c, rfl⟩ | ⟨hw, ht⟩
    · cases he
    · obtain ⟨h1, h2⟩ := ht x v hx
      rcases hv with hv | hv
      · obtain ⟨rfl, rfl⟩ := h2 hv
        exact .inl ⟨rfl, hd.release _ _ (by simp [Memory.releases]) (.inr rfl)⟩
      · rw [h1] at hv; cases hv

theorem session_no_race {P : Params} {m m' : Memory} {a : Act} (hs : InSession P m) (ha : duringSession m.sys a)
    (h : m.exec P a = some m') (k : Nat) : ¬ RacesWith P m a k := by
  rintro ⟨who, ts, x, v, w, hk, hx, hy, hvw, hb⟩
  have hd := memory_does h
  obtain ⟨_, hcase⟩ := during_cases ha hs.idle hd.sys
  have hyes : m.before a k = true := by
    rcases hcase with ⟨i, c, rfl⟩ | ⟨hw, ht⟩
    · cases who with
      | some j => exact seen_no_race hs.seen h hk hx hy hvw
      | none =>
        obtain ⟨t, hti, _⟩ := run_thread hd.sys
        have hv : v = true ∨ guarded x = true := by
          rcases hvw with hv | rfl
          · exact .inl hv
          · rcases touches_run hti hy with h1 | ⟨_, h1⟩
            · exact .inr (touches_write h1)
            · cases h1
        rcases hs.control k ts x v hk hx hv with ⟨rfl, h1⟩ | h1
        · rcases touches_run hti hy with h2 | ⟨h2, _⟩
          · exact before_held (thread_acquires hti (touches_shutdown h2 c).1) h1
          · cases h2
        · exact before_seen (h1 i (List.getElem?_eq_some_iff.mp hti).1)
    · cases who with
      | none => exact before_seen (by rw [hw]; exact hs.seen.ctl k ts hk)
      | some j =>
        obtain ⟨h1, h2⟩ := ht x w hy
        rcases hvw with rfl | rfl
        · rw [hs.seen.writes k j ts x hk hx] at h1; cases h1
        · obtain ⟨rfl, rfl⟩ := h2 rfl
          exact before_held (o := .shutdownLock) (by simp [Memory.acquires]) (hs.seen.shut k j ts v hk hx)
  rw [hyes] at hb
  cases hb

theorem quiet_during {a : Act} {as : List Act} (h : quiet (a :: as) = true) (s : Sys) :
    duringSession s a ∧ quiet as = true := by
  cases a <;> simp [quiet] at h <;> exact ⟨⟨nofun, fun o f e => by rcases e with e | e <;> cases e⟩, h⟩

theorem quiet_free {P : Params} {m : Memory} {as : List Act} (hs : InSession P m) (ha : quiet as = true) :
    RaceFree P m as := by
  induction as generalizing m with
  | nil => trivial
  | cons a as ih =>
    intro m' h
    obtain ⟨h1, h2⟩ := quiet_during ha m.sys
    exact ⟨session_no_race hs h1 h, ih (session_exec hs h1 h) h2⟩

theorem exec_up {P : Params} {s s' : Sys} {a : Act} (h : s.exec P a = some s') (hu : s.shutdown = false) (ha : a ≠ .stop) :
    s'.shutdown = false := by
  unfold Sys.exec at h
  split at h
  · cases h
  · cases a with
    | stop => exact absurd rfl ha
    | run i c =>
      dsimp only at h
      split at h
      · cases h
      · rw [(step_frame h).shutdown]; exact hu
    | start =>
      dsimp only at h
      split at h
      · cases h
      · split at h <;> cases h <;> (cases P.controller <;> simp [Sys.panic, Sys.makeChannels, Sys.resetTables, hu])
    | _ =>
      dsimp only at h
      repeat' split at h
      all_goals first | cases h; done | (have h := Option.some.inj h; subst h; exact hu)

theorem session_free {P : Params} {m : Memory} {as : List Act} (hs : InSession P m) (hu : m.sys.shutdown = false)
    (ha : lastSession as = true) : RaceFree P m as := by
  induction as generalizing m with
  | nil => trivial
  | cons a as ih =>
    intro m' h
    have hd : duringSession m.sys a := by
      refine ⟨fun e => (by subst e; cases ha), fun _ _ _ => hu⟩
    refine ⟨session_no_race hs hd h, ?_⟩
    by_cases hst : a = .stop
    · subst hst
      exact quiet_free (session_exec hs hd h) ha
    · refine ih (session_exec hs hd h) (exec_up (memory_does h).sys hu hst) ?_
      cases a <;> first | exact ha | (exact absurd rfl hst) | (cases ha; done)

/-- While there are no goroutines nothing races. -/
theorem early_no_race {P : Params} {m m' : Memory} {a : Act} (hs : Seen P m) (he : m.sys.threads = [])
    (h : m.exec P a = some m') (k : Nat) : ¬ RacesWith P m a k := by
  rintro ⟨who, ts, x, v, w, hk, hx, hy, hvw, hb⟩
  have hd := memory_does h
  cases who with
  | some j =>
    have := (hs.own k j ts hk).2
    rw [he] at this
    simp at this
  | none =>
    have hw : a.who = none := by
      cases a with
      | run i c =>
        obtain ⟨t, ht, _⟩ := run_thread hd.sys
        rw [he] at ht
        cases ht
      | _ => rfl
    have := before_seen (a := a) (by rw [hw]; exact hs.ctl k ts hk)
    rw [this] at hb
    cases hb

theorem exec_quiet {P : Params} {s s' : Sys} {a : Act} (h : s.exec P a = some s') (he : s.threads = [])
    (ha : ∀ d x, a ≠ .call d x) (hl : ∀ ok, a ≠ .listen ok) : s'.threads = [] := by
  unfold Sys.exec at h
  split at h
  · cases h
  · cases a with
    | call d x => exact absurd rfl (ha d x)
    | listen ok => exact absurd rfl (hl ok)
    | run i c =>
      dsimp only at h
      rw [he] at h
      cases h
    | start =>
      dsimp only at h
      split at h
      · cases h
      · split at h <;> cases h <;> (cases P.controller <;> simp [Sys.panic, Sys.makeChannels, Sys.resetTables, he])
    | _ =>
      dsimp only at h
      repeat' split at h
      all_goals first | cases h; done | (have h := Option.some.inj h; subst h; exact he)

theorem session_begins {P : Params} {m m' : Memory} {ok : Bool} (hs : Seen P m) (he : m.sys.threads = [])
    (h : m.exec P (.listen ok) = some m') : InSession P m' := by
  have hd := memory_does h
  refine ⟨seen_exec hs h, ?_, ?_⟩
  · have h1 := hd.sys
    unfold Sys.exec at h1
    split at h1
    · cases h1
    · dsimp only at h1
      repeat' split at h1
      all_goals first | cases h1; done | (have h1 := Option.some.inj h1; rw [← h1]; simp)
  · intro k ts x v hk hx hv
    refine .inr fun n hn => hd.fresh n k (by rw [he]; simp) hn ?_
    rw [hd.events] at hk
    rcases append_event hk with hk | ⟨hk, _⟩
    · exact .inl (before_seen (hs.ctl k ts hk))
    · exact .inr hk

theorem start_up {P : Params} {s s' s'' : Sys} {ok : Bool} (h : s.exec P .start = some s')
    (h' : s'.exec P (.listen ok) = some s'') : s'.shutdown = false := by
  have hc : s'.control = .listening := by
    unfold Sys.exec at h'
    split at h'
    · cases h'
    · dsimp only at h'
      split at h'
      · cases h'
      · rename_i hn; simpa using hn
  unfold Sys.exec at h
  split at h
  · cases h
  · dsimp only at h
    split at h
    · cases h
    · rename_i hi
      split at h <;> have h := Option.some.inj h <;> subst h
      · cases hp : P.controller <;> simp_all [Sys.panic, Sys.resetTables]
      · cases hp : P.controller <;> simp_all [Sys.resetTables]
      · rfl

theorem one_session_free {P : Params} {as : List Act} (h : OneSession as) : RaceFree P (Memory.init P) as := by
  obtain ⟨pre, ok, post, rfl, hpre, hpost⟩ := h
  have key : ∀ (m : Memory), Seen P m → m.sys.threads = [] → RaceFree P m (pre ++ .start :: .listen ok :: post) := by
    induction pre with
    | nil =>
      intro m hs he m1 h1
      refine ⟨early_no_race hs he h1, ?_⟩
      have hs1 := seen_exec hs h1
      have he1 := exec_quiet (memory_does h1).sys he nofun nofun
      intro m2 h2
      have hup : m1.sys.shutdown = false := start_up (memory_does h1).sys (memory_does h2).sys
      exact ⟨early_no_race hs1 he1 h2,
        session_free (session_begins hs1 he1 h2) (exec_up (memory_does h2).sys hup nofun) hpost⟩
    | cons a pre ih =>
      intro m hs he m1 h1
      refine ⟨early_no_race hs he h1, ih (fun b hb => hpre b (List.mem_cons_of_mem _ hb)) m1 (seen_exec hs h1) ?_⟩
      obtain ⟨o, f, rfl | rfl⟩ := hpre a List.mem_cons_self <;> exact exec_quiet (memory_does h1).sys he nofun nofun
  exact key _ (seen_init P) rfl

end Verif.Conc
