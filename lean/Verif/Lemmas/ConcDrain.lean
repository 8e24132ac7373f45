import Verif.Lemmas.ConcAlive
/-
While the node runs, its sendLoop can always make room, so that the update loop can finish and unlock.
-/
namespace Verif.Conc
open Packet Code Artnet Spec

/-- Goroutines can get from one state to the other without a tick. -/
def Leads (P : Params) (s s' : Sys) : Prop := ∃ as, (∀ a ∈ as, a.quiet = true) ∧ s.execs P as = some s'

theorem Leads.refl (P : Params) (s : Sys) : Leads P s s := ⟨[], nofun, rfl⟩

theorem Leads.trans {P : Params} {s s' s'' : Sys} (h : Leads P s s') (h' : Leads P s' s'') : Leads P s s'' := by
  obtain ⟨as, ha, he⟩ := h
  obtain ⟨bs, hb, he'⟩ := h'
  refine ⟨as ++ bs, ?_, by rw [execs_append, he]; exact he'⟩
  intro a hm
  exact (List.mem_append.mp hm).elim (ha a) (hb a)

theorem Leads.step {P : Params} {s s' : Sys} {i : Nat} {t c} (hcr : s.crashed = none)
    (ht : s.threads[i]? = some t) (hq : (Act.run i c).quiet = true) (h : s.step P i t c = some s') :
    Leads P s s' := by
  refine ⟨[.run i c], ?_, ?_⟩
  · intro a ha; cases List.mem_singleton.mp ha; exact hq
  · simp only [Sys.execs, exec_run hcr ht, h]

theorem Leads.reach {P : Params} {s s' : Sys} (h : Leads P s s') (hr : TidyReach P s) : TidyReach P s' := by
  obtain ⟨as, hq, he⟩ := h
  exact hr.quiet hq he

theorem Running.cur {P : Params} {g : Nat} {s : Sys} (hr : TidyReach P s) (hR : Running g s) : s.cur = some g := by
  rw [(life hr.reach).cur, lastIdx, hR.top]; rfl

/-- How far the sendLoop is from its select. -/
def rank : Thread → Nat
  | .slTop => 1
  | .slWrite _ => 2
  | .slCheck _ => 3
  | _ => 0

/-- The sendLoop can make room in its queue. -/
theorem drain {P : Params} {g j : Nat} : ∀ (n : Nat) {s : Sys} {t : Thread}, rank t ≤ n → TidyReach P s → Running g s →
    s.crashed = none → s.threads[j]? = some t → isSl t = true →
    ∃ s', Leads P s s' ∧ s'.crashed = none ∧ Running g s' ∧ s'.lock = s.lock ∧
      (∀ k, k ≠ j → s'.threads[k]? = s.threads[k]?) ∧
      ∃ ch, s'.chans[g]? = some ch ∧ ch.send.length < capacity := by
  intro n
  induction n with
  | zero =>
    intro s t hn hr hR hcr ht hs
    cases t <;> first | (cases hs; done) | skip
    case slWait k =>
      cases hR.same (latest hr _ (List.mem_of_getElem? ht))
      have hg : g < s.chans.length := by have := hR.top; omega
      have h0 := List.getElem?_eq_getElem hg
      by_cases hroom : s.chans[g].send.length < capacity
      · exact ⟨s, .refl P s, hcr, hR, rfl, fun _ _ => rfl, _, h0, hroom⟩
      · cases hq : s.chans[g].send with
        | nil => rw [hq] at hroom; simp [capacity] at hroom
        | cons p q =>
          have hst : s.step P j (.slWait g) .next = some ({ s with
              chans := s.chans.set g { s.chans[g] with send := q, taken := s.chans[g].taken ++ [p] } }.goto j
              (.slCheck p)) := by
            simp only [Sys.step, h0, hq]
          refine ⟨_, .step hcr ht rfl hst, hcr, hR.frame (step_frame hst), rfl, ?_,
            { s.chans[g] with send := q, taken := s.chans[g].taken ++ [p] }, List.getElem?_set_self hg, ?_⟩
          · intro k hk
            exact List.getElem?_set_ne (Ne.symm hk)
          · have h10 := (chans_ok hr.reach _ (List.getElem_mem hg)).send
            rw [hq] at h10
            simp only [List.length_cons, capacity] at h10 ⊢
            omega
    all_goals simp [rank] at hn
  | succ n ih =>
    intro s t hn hr hR hcr ht hs
    have hlf := life hr.reach
    have next : ∀ {c s' t'}, (Act.run j c).quiet = true → s.step P j t c = some s' → s'.crashed = none →
        s'.lock = s.lock → s'.threads = s.threads.set j t' → isSl t' = true → rank t' ≤ n →
        ∃ s', Leads P s s' ∧ s'.crashed = none ∧ Running g s' ∧ s'.lock = s.lock ∧
          (∀ k, k ≠ j → s'.threads[k]? = s.threads[k]?) ∧
          ∃ ch, s'.chans[g]? = some ch ∧ ch.send.length < capacity := by
      intro c s' t' hq hst hcr' hlk hth hs' hrk
      have hL := Leads.step hcr ht hq hst
      obtain ⟨s2, h1, h2, h3, h4, h5, h6⟩ := ih hrk (hL.reach hr) (hR.frame (step_frame hst)) hcr'
        (by rw [hth]; exact List.getElem?_set_self (List.getElem?_eq_some_iff.mp ht).1) hs'
      refine ⟨s2, hL.trans h1, h2, h3, h4.trans hlk, ?_, h6⟩
      intro k hk
      rw [h5 k hk, hth, List.getElem?_set_ne (Ne.symm hk)]
    have hsh : s.shutdown = false := by
      cases hx : s.shutdown with
      | false => rfl
      | true => exact absurd hR.phase (hlf.shut.mp hx)
    have hcur := hR.cur hr
    cases t <;> first | (cases hs; done) | skip
    case slTop =>
      exact next (c := .next) (s' := s.goto j (.slWait g)) rfl (by simp only [Sys.step, hcur]; rfl) hcr rfl rfl rfl (Nat.zero_le _)
    case slWait g => exact ih (by simp [rank]) hr hR hcr ht rfl
    case slCheck p =>
      exact next (c := .next) (s' := s.goto j (.slWrite p)) rfl (by simp only [Sys.step, hsh]; rfl) hcr rfl rfl rfl
        (by simp only [rank] at *; omega)
    case slWrite p =>
      exact next (c := .fail) rfl rfl hcr rfl rfl rfl
        (by simp only [rank] at *; omega)

/-- The holder of the lock can finish. -/
theorem unlock_possible {P : Params} {g i : Nat} : ∀ (n : Nat) {s : Sys} {t : Thread}, work t ≤ n → TidyReach P s →
    Running g s → s.crashed = none → s.threads[i]? = some t → (holder t).isSome = true →
    ∃ s', Leads P s s' ∧ s'.crashed = none ∧ Running g s' ∧ s'.lock = false ∧
      ∀ (k : Nat) u, s.threads[k]? = some u → isSl u = false → (holder u).isSome = false → s'.threads[k]? = some u := by
  intro n
  induction n with
  | zero =>
    intro s t hn hr hR hcr ht hh
    cases t <;> first | (cases hh; done) | (simp [work] at hn; done)
  | succ n ih =>
    intro s t hn hr hR hcr ht hh
    have hlf := life hr.reach
    have hcur := hR.cur hr
    have keep : ∀ {s1 : Sys} {t'}, s1.threads = s.threads.set i t' →
        ∀ (k : Nat) u, s.threads[k]? = some u → isSl u = false → (holder u).isSome = false → s1.threads[k]? = some u := by
      intro s1 t' hth k u hk _ hu
      rw [hth, List.getElem?_set_ne]
      · exact hk
      · rintro rfl; rw [ht] at hk; cases hk; rw [hh] at hu; cases hu
    have next : ∀ {s' t'}, s.step P i t .next = some s' → s'.crashed = none →
        s'.threads = s.threads.set i t' → (holder t').isSome = true → work t' ≤ n →
        ∃ s', Leads P s s' ∧ s'.crashed = none ∧ Running g s' ∧ s'.lock = false ∧
          ∀ (k : Nat) u, s.threads[k]? = some u → isSl u = false → (holder u).isSome = false → s'.threads[k]? = some u := by
      intro s' t' hst hcr' hth hh' hw
      have hL := Leads.step hcr ht rfl hst
      obtain ⟨s2, h1, h2, h3, h4, h5⟩ := ih hw (hL.reach hr) (hR.frame (step_frame hst)) hcr'
        (by rw [hth]; exact List.getElem?_set_self (List.getElem?_eq_some_iff.mp ht).1) hh'
      exact ⟨s2, hL.trans h1, h2, h3, h4, fun k u hk h h' => h5 k u (keep hth k u hk h h') h h'⟩
    cases t <;> first | (cases hh; done) | skip
    case duTick pend rest now =>
      match pend, rest with
      | [], [] =>
        have hst : s.step P i (.duTick [] [] now) .next = some ({ s with lock := false }.goto i .duTop) := rfl
        exact ⟨_, .step hcr ht rfl hst, hcr, hR.frame (step_frame hst), rfl, keep rfl⟩
      | [], (a, r) :: rest =>
        have := tickAt_few s.ctrl a r now
        refine next rfl hcr rfl rfl ?_
        simp only [work, List.length_cons, List.length_nil] at *
        omega
      | e :: pend, rest =>
        refine next (s' := s.goto i (.duSend g e pend rest now)) (by simp only [Sys.step, hcur]; rfl) hcr rfl rfl ?_
        simp only [work, List.length_cons] at *
        omega
    case duSend k e pend rest now =>
      cases hR.same (latest hr _ (List.mem_of_getElem? ht))
      obtain ⟨u, hu, hus⟩ := loops_alive hr hcr hR 2 (.inr (.inl rfl))
      have hus := kind_sl.mpr hus
      obtain ⟨j, hj⟩ := List.mem_iff_getElem?.mp hu
      have hji : i ≠ j := by rintro rfl; rw [ht] at hj; cases hj; cases hus
      obtain ⟨s1, hL, hcr1, hR1, hlk1, hth1, ch, hc0, hroom⟩ := drain _ (Nat.le_refl _) hr hR hcr hj hus
      have ht1 : s1.threads[i]? = some (.duSend g e pend rest now) := by rw [hth1 i hji]; exact ht
      have hst : s1.step P i (.duSend g e pend rest now) .next = some ({ s1 with
          chans := s1.chans.set g { ch with
            send := ch.send ++ [Payload.mk e.address e.data]
            enq := ch.enq ++ [Payload.mk e.address e.data] }
          emitted := s1.emitted ++ [e] }.goto i (.duTick pend rest now)) := by
        simp only [Sys.step, Sys.comm, hc0, Chans.pushSend, if_pos hroom]
        rfl
      have hL1 := Leads.step hcr1 ht1 rfl hst
      obtain ⟨s2, h1, h2, h3, h4, h5⟩ := ih (t := .duTick pend rest now) (by simp only [work] at *; omega)
        (hL1.reach (hL.reach hr)) (hR1.frame (step_frame hst)) hcr1
        (List.getElem?_set_self (List.getElem?_eq_some_iff.mp ht1).1) rfl
      refine ⟨s2, hL.trans (hL1.trans h1), h2, h3, h4, fun k u hk h h' => h5 k u ?_ h h'⟩
      have hkj : k ≠ j := by rintro rfl; rw [hj] at hk; cases hk; rw [hus] at h; cases h
      have hki : i ≠ k := by rintro rfl; rw [ht] at hk; cases hk; cases h'
      show (s1.threads.set i _)[k]? = _
      rw [List.getElem?_set_ne hki, hth1 k hkj]
      exact hk

/-- While the lock is held a caller waits. -/
theorem caller_stays {P : Params} {s s' : Sys} {a : Act} {k : Nat} {d : Arr 512} {x : Address}
    (h : s.exec P a = some s') (hk : s.threads[k]? = some (.caller d x)) (hl : s.lock = true) :
    s'.threads[k]? = some (.caller d x) := by
  have hlt := (List.getElem?_eq_some_iff.mp hk).1
  have old : ∀ {i : Nat} {t t'}, s.threads[i]? = some t → (∀ d a, t ≠ .caller d a) →
      (s.threads.set i t')[k]? = some (.caller d x) := by
    intro i t t' ht hn
    rw [List.getElem?_set_ne]
    · exact hk
    · rintro rfl; rw [ht] at hk; cases hk; exact hn _ _ rfl
  have app : ∀ {l : List Thread}, (s.threads ++ l)[k]? = some (.caller d x) := by
    intro l; rw [List.getElem?_append_left hlt]; exact hk
  have app' : ∀ {i : Nat} {t t'} {l : List Thread}, s.threads[i]? = some t → (∀ d a, t ≠ .caller d a) →
      (s.threads.set i t' ++ l)[k]? = some (.caller d x) := by
    intro i t t' l ht hn
    rw [List.getElem?_append_left (by simpa using hlt)]; exact old ht hn
  cases (exec_Step h).2 with
  | move ht m => refine old ht ?_; cases m <;> nofun
  | pushSend ht k _ _ => refine old ht ?_; cases k <;> nofun
  | sendDMX _ hn => rw [hl] at hn; cases hn
  | spawnReader ht => exact app' ht nofun
  | spawnHandler ht _ => exact app' ht nofun
  | startPanic _ _ => simp only [Sys.reset, Sys.panic, Sys.resetTables]; split <;> exact hk
  | startFail _ _ => simp only [Sys.reset, Sys.resetTables]; split <;> exact hk
  | start _ _ => simp only [Sys.reset, Sys.makeChannels, Sys.resetTables]; split <;> exact hk
  | listen _ => exact app
  | spawnCaller _ => exact app
  | _ => first | exact hk | (refine old (by assumption) ?_; nofun)

end Verif.Conc
