import Verif.Props.Progress
import Verif.Lemmas.Settle
/-
Exactly when the goroutines can return, and when the lock can become free, after Stop: C66, C67.
-/
namespace Verif.Props
open Spec Packet Code Artnet Conc

/-- If the goroutines can all return, whatever tickers fire and whatever SendDMXToAddress is called with meanwhile, then there is room
for everything that must be sent. -/
theorem C66_needed {P : Params} {s s' : Sys} {as : List Act} (h : TidyReach P s) (hp : s.phase = .stopped)
    (ha : ∀ a ∈ as, (∃ i c, a = .run i c) ∨ ∃ d x, a = .call d x) (he : s.execs P as = some s')
    (hd : ∀ t ∈ s'.threads, t = .done) : Settles P s := by
  induction as generalizing s with
  | nil => cases he; exact Settles.done h.reach hd
  | cons a as ih =>
    simp only [Sys.execs] at he
    cases hx : s.exec P a with
    | none => rw [hx] at he; cases he
    | some s1 =>
      rw [hx] at he
      have ha' : ∀ b ∈ as, (∃ i c, b = .run i c) ∨ ∃ d x, b = .call d x := fun b hb => ha b (List.mem_cons_of_mem _ hb)
      have hcr := (exec_Step hx).1
      rcases ha a (List.mem_cons_self ..) with ⟨i, c, rfl⟩ | ⟨d, x, rfl⟩
      · have h1 : TidyReach P s1 := h.step hx nofun
        cases ht : s.threads[i]? with
        | none =>
          unfold Sys.exec at hx
          rw [hcr, if_neg (by simp)] at hx
          simp only [ht] at hx
          cases hx
        | some t =>
          rw [exec_run hcr ht] at hx
          have hs1 := ih h1 ((step_frame hx).phase.trans hp) ha' he
          cases hn : s1.crashed with
          | none => exact Settles.back (effect h hp ht hx hn) ht hs1
          | some f =>
            -- nothing happens after a panic, and the goroutine that panics has not returned
            cases as with
            | cons b bs =>
              simp only [Sys.execs] at he
              have : s1.exec P b = none := by unfold Sys.exec; rw [hn, if_pos (by simp)]
              rw [this] at he
              cases he
            | nil =>
              have hss : s1 = s' := by cases he; rfl
              have hne : t ≠ .done := by rintro rfl; simp [Sys.step] at hx
              have : s1.threads = s.threads := by
                cases step_Run hx with
                | panic => rfl
                | _ => exact absurd (hcr.symm.trans hn) nofun
              rw [← hss, this] at hd
              exact absurd (hd t (List.mem_of_getElem? ht)) hne
      · have h1 : TidyReach P s1 := h.step hx nofun
        unfold Sys.exec at hx
        rw [hcr, if_neg (by simp)] at hx
        simp only at hx
        split at hx <;> cases hx
        have hs1 := ih h1 hp ha' he
        refine Settles.caller (d := d) (x := x) ?_ ?_ ?_ ?_ hs1 <;> rfl

/-- C66, exactly: once Stop has returned, every Start having waited for the goroutines of the session before, no tick being
processed and no call-back being nil, the goroutines can all return if and only if there is room for everything that they must
send. -/
theorem C66_exact {P : Params} {s : Sys} (h : TidyReach P s) (hp : s.phase = .stopped) (hcr : s.crashed = none)
    (hfps : P.controller = true → 1 ≤ P.maxFPS ∧ P.maxFPS ≤ 1000000000)
    (hlk : Thread.duLock ∉ s.threads) (hcb : s.callable) :
    (∃ as s', (∀ a ∈ as, a.quiet = true) ∧ s.execs P as = some s' ∧ ∀ t ∈ s'.threads, t = .done) ↔ Settles P s := by
  constructor
  · rintro ⟨as, s', hq, he, hd⟩
    refine C66_needed h hp (fun a ha => ?_) he hd
    have hqa := hq a ha
    cases a <;> first | exact .inl ⟨_, _, rfl⟩ | cases hqa
  · intro hs
    have key : ∀ m (s : Sys), TidyReach P s → s.phase = .stopped → s.crashed = none → Thread.duLock ∉ s.threads →
        s.callable → Settles P s → s.work ≤ m →
        ∃ as s', (∀ a ∈ as, a.quiet = true) ∧ s.execs P as = some s' ∧ ∀ t ∈ s'.threads, t = .done := by
      intro m
      refine Nat.rec ?_ (fun m ih => ?_) m
      all_goals
        intro s h hp hcr hlk hcb hs hm
        by_cases hall : ∀ t ∈ s.threads, t = .done
        · exact ⟨[], s, nofun, rfl, hall⟩
        have hx : ∃ t ∈ s.threads, t ≠ .done := by
          refine Classical.byContradiction fun hx => hall fun t ht => ?_
          exact Classical.byContradiction fun hy => hx ⟨t, ht, hy⟩
        have one : ∀ {i : Nat} {t : Thread} {c : Choice} {s' : Sys}, s.threads[i]? = some t → c ≠ .tick → c ≠ .gcTick →
            s.step P i t c = some s' → (∀ a ∈ [Act.run i c], a.quiet = true) ∧ s.execs P [.run i c] = some s' := by
          intro i t c s' ht c1 c2 hst
          refine ⟨?_, by simp only [Sys.execs, exec_run hcr ht, hst]⟩
          intro a ha
          cases List.mem_singleton.mp ha
          cases c <;> first | rfl | exact absurd rfl c1 | exact absurd rfl c2
        obtain ⟨i, t, c, s', ht, c1, c2, hst, hs'⟩ := Settles.onward h hp hcr hlk (fun i t c s' ht c1 c2 hst =>
          (quiet_steps hfps h.reach hp hcr hlk hcb (one ht c1 c2 hst).1 (one ht c1 c2 hst).2).1) hs hx
        obtain ⟨q1, q2⟩ := one ht c1 c2 hst
        obtain ⟨k1, k2, k3, _, _, k6, _⟩ := quiet_steps hfps h.reach hp hcr hlk hcb q1 q2
        simp only [List.length_singleton] at k6
      · exact absurd hm (by simp only [Nat.le_zero]; omega)
      · obtain ⟨as, s'', hq, he, hd⟩ := ih s' (h.quiet q1 q2) k2 k1 k3
          (fun o => by rw [(step_frame hst).callbacks]; exact hcb o) hs' (by omega)
        refine ⟨[.run i c] ++ as, s'', ?_, by rw [execs_append, q2]; exact he, hd⟩
        intro a ha
        rcases List.mem_append.mp ha with ha | ha
        · exact q1 a ha
        · exact hq a ha
    exact key _ s h hp hcr hlk hcb hs (Nat.le_refl _)

/-- A session that settles although eleven items are under way: the reader waits at a full recvCh, and recvLoop is in its select. -/
example : afterTidy sampleNode (sampleBlocked.take (sampleBlocked.length - 1)) (fun s => s.phase == .stopped && s.crashed == none &&
    s.threads.all (· != .duLock) && s.callbacks.all (·.2 != .nil) && s.underWay == 11 && s.recvLoad == 11 &&
    s.sum isRecvLoop == 1 && decide (Settles sampleNode s)) = true := by decide +kernel

/-- When recvLoop has returned it does not. -/
example : afterTidy sampleNode sampleBlocked (fun s => s.phase == .stopped && s.crashed == none &&
    s.threads.all (· != .duLock) && s.callbacks.all (·.2 != .nil) && s.recvLoad == 11 &&
    s.sum isRecvLoop == 0 && !decide (Settles sampleNode s)) = true := by decide +kernel

/-- The update loop of a controller waits at a full sendCh. The session settles as long as sendLoop is in its select. -/
example : afterTidy sampleController (sampleDeadlock.take (sampleDeadlock.length - 1)) (fun s => s.phase == .stopped &&
    s.crashed == none && s.threads.all (· != .duLock) && s.callbacks.all (·.2 != .nil) && s.sendLoad == 11 && s.pollLoad == 10 &&
    s.sum mayTake == 1 && decide (Settles sampleController s)) = true := by decide +kernel

example : afterTidy sampleController sampleDeadlock (fun s => s.phase == .stopped &&
    s.crashed == none && s.threads.all (· != .duLock) && s.callbacks.all (·.2 != .nil) && s.sendLoad == 11 &&
    s.sum mayTake == 0 && !decide (Settles sampleController s)) = true := by decide +kernel

/-! ### C67 after Stop -/

/-- If the lock can become free, whatever tickers fire and whatever SendDMXToAddress is called with meanwhile, then there is room for the
rest of the tick. -/
theorem C67_needed {P : Params} {s s' : Sys} {as : List Act} (h : TidyReach P s) (hp : s.phase = .stopped)
    (ha : ∀ a ∈ as, (∃ i c, a = .run i c) ∨ ∃ d x, a = .call d x) (he : s.execs P as = some s')
    (hd : s'.lock = false) : Unlocks s := by
  induction as generalizing s with
  | nil => cases he; exact .inl hd
  | cons a as ih =>
    simp only [Sys.execs] at he
    cases hx : s.exec P a with
    | none => rw [hx] at he; cases he
    | some s1 =>
      rw [hx] at he
      have ha' : ∀ b ∈ as, (∃ i c, b = .run i c) ∨ ∃ d x, b = .call d x := fun b hb => ha b (List.mem_cons_of_mem _ hb)
      have hcr := (exec_Step hx).1
      rcases ha a (List.mem_cons_self ..) with ⟨i, c, rfl⟩ | ⟨d, x, rfl⟩
      · have h1 : TidyReach P s1 := h.step hx nofun
        cases ht : s.threads[i]? with
        | none =>
          unfold Sys.exec at hx
          rw [hcr, if_neg (by simp)] at hx
          simp only [ht] at hx
          cases hx
        | some t =>
          rw [exec_run hcr ht] at hx
          have hs1 := ih h1 ((step_frame hx).phase.trans hp) ha' he
          cases hn : s1.crashed with
          | none => exact Unlocks.back h hp ht hx hn hs1
          | some f =>
            cases as with
            | cons b bs =>
              simp only [Sys.execs] at he
              have : s1.exec P b = none := by unfold Sys.exec; rw [hn, if_pos (by simp)]
              rw [this] at he
              cases he
            | nil =>
              have hss : s1 = s' := by cases he; rfl
              have : s1.lock = s.lock := by
                cases step_Run hx with
                | panic => rfl
                | _ => exact absurd (hcr.symm.trans hn) nofun
              exact .inl (by rw [← this, hss]; exact hd)
      · have h1 : TidyReach P s1 := h.step hx nofun
        unfold Sys.exec at hx
        rw [hcr, if_neg (by simp)] at hx
        simp only at hx
        split at hx <;> cases hx
        rcases ih h1 hp ha' he with h2 | h2
        · exact .inl h2
        · refine .inr ?_
          have z : ∀ f : Thread → Nat, f (.caller d x) = 0 → ((s.threads ++ [Thread.caller d x]).map f).sum = s.sum f := by
            intro f hf
            simp only [List.map_append, List.sum_append, List.map_cons, List.map_nil, List.sum_cons, List.sum_nil, hf]
            exact Nat.add_zero _
          have e1 := z (leftInTick s.ctrl) rfl
          have e2 := z mayTake rfl
          simp only [Sys.sum] at h2 e1 e2 ⊢
          rw [e1, e2] at h2
          exact h2

/-- C67 after Stop, exactly: every Start having waited for the goroutines of the session before, no update loop being about to lock and no
call-back being nil, the lock can become free if and only if there is room in sendCh for the rest of the tick. -/
theorem C67_exact {P : Params} {s : Sys} (h : TidyReach P s) (hp : s.phase = .stopped) (hcr : s.crashed = none)
    (hfps : P.controller = true → 1 ≤ P.maxFPS ∧ P.maxFPS ≤ 1000000000)
    (hlk : Thread.duLock ∉ s.threads) (hcb : s.callable) :
    (∃ as s', (∀ a ∈ as, a.quiet = true) ∧ s.execs P as = some s' ∧ s'.lock = false) ↔ Unlocks s := by
  constructor
  · rintro ⟨as, s', hq, he, hd⟩
    refine C67_needed h hp (fun a ha => ?_) he hd
    have hqa := hq a ha
    cases a <;> first | exact .inl ⟨_, _, rfl⟩ | cases hqa
  · intro hs
    have key : ∀ m (s : Sys), TidyReach P s → s.phase = .stopped → s.crashed = none → Thread.duLock ∉ s.threads →
        s.callable → Unlocks s → s.work ≤ m →
        ∃ as s', (∀ a ∈ as, a.quiet = true) ∧ s.execs P as = some s' ∧ s'.lock = false := by
      intro m
      refine Nat.rec ?_ (fun m ih => ?_) m
      all_goals
        intro s h hp hcr hlk hcb hs hm
        cases hl : s.lock with
        | false => exact ⟨[], s, nofun, rfl, hl⟩
        | true => ?_
        have one : ∀ {i : Nat} {t : Thread} {c : Choice} {s' : Sys}, s.threads[i]? = some t → c ≠ .tick → c ≠ .gcTick →
            s.step P i t c = some s' → (∀ a ∈ [Act.run i c], a.quiet = true) ∧ s.execs P [.run i c] = some s' := by
          intro i t c s' ht c1 c2 hst
          refine ⟨?_, by simp only [Sys.execs, exec_run hcr ht, hst]⟩
          intro a ha
          cases List.mem_singleton.mp ha
          cases c <;> first | rfl | exact absurd rfl c1 | exact absurd rfl c2
        obtain ⟨i, t, c, s', ht, c1, c2, hst, hs'⟩ := Unlocks.onward h hp hlk (fun i t c s' ht c1 c2 hst =>
          (quiet_steps hfps h.reach hp hcr hlk hcb (one ht c1 c2 hst).1 (one ht c1 c2 hst).2).1) hs hl
        obtain ⟨q1, q2⟩ := one ht c1 c2 hst
        obtain ⟨k1, k2, k3, _, _, k6, _⟩ := quiet_steps hfps h.reach hp hcr hlk hcb q1 q2
        simp only [List.length_singleton] at k6
      · exact absurd hm (by simp only [Nat.le_zero]; omega)
      · obtain ⟨as, s'', hq, he, hd⟩ := ih s' (h.quiet q1 q2) k2 k1 k3
          (fun o => by rw [(step_frame hst).callbacks]; exact hcb o) hs' (by omega)
        refine ⟨[.run i c] ++ as, s'', ?_, by rw [execs_append, q2]; exact he, hd⟩
        intro a ha
        rcases List.mem_append.mp ha with ha | ha
        · exact q1 a ha
        · exact hq a ha
    exact key _ s h hp hcr hlk hcb hs (Nat.le_refl _)

/-- A caller of SendDMXToAddress that waits for the lock stays where it is until the lock has been free. -/
theorem C67_waits {P : Params} {as : List Act} {s s' : Sys} {k : Nat} {d : Arr 512} {x : Address}
    (hk : s.threads[k]? = some (.caller d x)) (he : s.execs P as = some s') :
    s'.threads[k]? = some (.caller d x) ∨ ∃ bs u, bs <+: as ∧ s.execs P bs = some u ∧ u.lock = false ∧
      u.threads[k]? = some (.caller d x) := by
  induction as generalizing s with
  | nil => cases he; exact .inl hk
  | cons a as ih =>
    cases hl : s.lock with
    | false => exact .inr ⟨[], s, List.nil_prefix, rfl, hl, hk⟩
    | true =>
      simp only [Sys.execs] at he
      cases hx : s.exec P a with
      | none => rw [hx] at he; cases he
      | some s1 =>
        rw [hx] at he
        rcases ih (caller_stays hx hk hl) he with h1 | ⟨bs, u, h1, h2, h3⟩
        · exact .inl h1
        · refine .inr ⟨a :: bs, u, ?_, ?_, h3⟩
          · obtain ⟨l, rfl⟩ := h1
            exact ⟨l, rfl⟩
          · simp only [Sys.execs, hx]; exact h2

/-- Such a caller can return if and only if there is room in sendCh for the rest of the tick. -/
theorem C67_caller {P : Params} {s : Sys} (h : TidyReach P s) (hp : s.phase = .stopped) (hcr : s.crashed = none)
    (hfps : P.controller = true → 1 ≤ P.maxFPS ∧ P.maxFPS ≤ 1000000000)
    (hlk : Thread.duLock ∉ s.threads) (hcb : s.callable) {k : Nat} {d : Arr 512} {x : Address}
    (hk : s.threads[k]? = some (.caller d x)) :
    (∃ as s', (∀ a ∈ as, a.quiet = true) ∧ s.execs P as = some s' ∧ s'.threads[k]? = some .done) ↔ Unlocks s := by
  rw [← C67_exact h hp hcr hfps hlk hcb]
  constructor
  · rintro ⟨as, s', hq, he, hd⟩
    rcases C67_waits hk he with h1 | ⟨bs, u, h1, h2, h3, _⟩
    · rw [hd] at h1; cases h1
    · exact ⟨bs, u, fun a ha => hq a (h1.subset ha), h2, h3⟩
  · rintro ⟨as, s', hq, he, hd⟩
    have hw : ∃ bs u, bs <+: as ∧ s.execs P bs = some u ∧ u.lock = false ∧ u.threads[k]? = some (.caller d x) := by
      rcases C67_waits hk he with h1 | h1
      · exact ⟨as, s', List.prefix_refl _, he, hd, h1⟩
      · exact h1
    obtain ⟨bs, u, h1, h2, h4, h3⟩ := hw
    have hqb : ∀ a ∈ bs, a.quiet = true := fun a ha => hq a (h1.subset ha)
    have hc := (quiet_steps hfps h.reach hp hcr hlk hcb hqb h2).1
    have hst : u.step P k (.caller d x) .next =
        some ({ u with ctrl := u.ctrl.sendDMX d x, hist := u.hist ++ [Op.send d x] }.goto k .done) := by
      simp only [Sys.step, h4]; rfl
    refine ⟨bs ++ [.run k .next], _, ?_, by rw [execs_append, h2, Option.bind_some, Sys.execs, exec_run hc h3, hst]; rfl, ?_⟩
    · intro a ha
      rcases List.mem_append.mp ha with ha | ha
      · exact hqb a ha
      · cases List.mem_singleton.mp ha; rfl
    · exact List.getElem?_set_self (List.getElem?_eq_some_iff.mp h3).1

/-- The update loop of a controller waits at a full sendCh with the lock taken, and a caller waits for the lock. The lock can become free as
long as sendLoop is in its select; when sendLoop has returned it cannot. -/
example : afterTidy sampleController (sampleDeadlock.take (sampleDeadlock.length - 1)) (fun s => s.phase == .stopped &&
    s.crashed == none && s.threads.all (· != .duLock) && s.callbacks.all (·.2 != .nil) && s.lock &&
    s.threads[8]? == some (.caller fullOn ⟨0, 1⟩) && s.sum (leftInTick s.ctrl) == 1 && decide (Unlocks s)) = true := by decide +kernel

example : afterTidy sampleController sampleDeadlock (fun s => s.phase == .stopped &&
    s.crashed == none && s.threads.all (· != .duLock) && s.callbacks.all (·.2 != .nil) && s.lock &&
    s.threads[8]? == some (.caller fullOn ⟨0, 1⟩) && !decide (Unlocks s)) = true := by decide +kernel

end Verif.Props
