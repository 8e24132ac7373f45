import Verif.Lemmas.ConcDrain
/-
While the node runs, every queue can be given room and the lock can be freed.
-/
namespace Verif.Conc
open Packet Code Artnet Spec

/-- Goroutines of the kinds in `K` can bring about `s'`; the others stay where they are. -/
structure To (P : Params) (g : Nat) (K : Nat → Prop) (s s' : Sys) : Prop where
  leads : Leads P s s'
  alive : s'.crashed = none
  run : Running g s'
  keep : ∀ (k : Nat) (t : Thread), s.threads[k]? = some t → ¬ K (kind t) → s'.threads[k]? = some t

theorem To.refl {P : Params} {g : Nat} {K : Nat → Prop} {s : Sys} (hcr : s.crashed = none) (hR : Running g s) : To P g K s s :=
  ⟨.refl P s, hcr, hR, fun _ _ h _ => h⟩

theorem To.trans {P : Params} {g : Nat} {K : Nat → Prop} {s s' s'' : Sys} (h : To P g K s s') (h' : To P g K s' s'') :
    To P g K s s'' :=
  ⟨h.leads.trans h'.leads, h'.alive, h'.run, fun k t ht hk => h'.keep k t (h.keep k t ht hk) hk⟩

theorem To.mono {P : Params} {g : Nat} {K K' : Nat → Prop} {s s' : Sys} (h : To P g K s s') (hK : ∀ k, K k → K' k) :
    To P g K' s s' :=
  ⟨h.leads, h.alive, h.run, fun k t ht hk => h.keep k t ht fun hx => hk (hK _ hx)⟩

theorem To.step {P : Params} {g : Nat} {K : Nat → Prop} {s s' : Sys} {i : Nat} {t : Thread} {c : Choice}
    (hcr : s.crashed = none) (hR : Running g s) (ht : s.threads[i]? = some t) (hK : K (kind t))
    (hq : (Act.run i c).quiet = true) (h : s.step P i t c = some s') (hcr' : s'.crashed = none) :
    To P g K s s' := by
  refine ⟨.step hcr ht hq h, hcr', hR.frame (step_frame h), ?_⟩
  intro k u hu hk
  have hne : i ≠ k := by rintro rfl; rw [ht] at hu; cases hu; exact hk hK
  have hlt := (List.getElem?_eq_some_iff.mp hu).1
  have old : ∀ {t' l}, (s.threads.set i t' ++ l)[k]? = some u := by
    intro t' l
    rw [List.getElem?_append_left (by simpa using hlt), List.getElem?_set_ne hne]
    exact hu
  have old0 : ∀ {t'}, (s.threads.set i t')[k]? = some u := by
    intro t'
    rw [List.getElem?_set_ne hne]
    exact hu
  cases step_Run h with
  | panic => exact hu
  | spawnReader => exact old
  | spawnHandler => exact old
  | _ => exact old0

/-- sendCh can be given room. -/
theorem sendRoom {P : Params} {g : Nat} {s : Sys} (hr : TidyReach P s) (hR : Running g s) (hcr : s.crashed = none) :
    ∃ s' ch, To P g (· = 2) s s' ∧ s'.chans[g]? = some ch ∧ ch.send.length < capacity := by
  obtain ⟨u, hu, hus⟩ := loops_alive hr hcr hR 2 (.inr (.inl rfl))
  have hus := kind_sl.mpr hus
  obtain ⟨j, hj⟩ := List.mem_iff_getElem?.mp hu
  obtain ⟨s1, hL, hcr1, hR1, _, hth1, ch, hc0, hroom⟩ := drain _ (Nat.le_refl _) hr hR hcr hj hus
  refine ⟨s1, ch, ⟨hL, hcr1, hR1, fun k t ht hk => ?_⟩, hc0, hroom⟩
  rw [hth1 k]
  · exact ht
  · rintro rfl; rw [hj] at ht; cases ht; exact hk (kind_sl.mp hus)

/-- nodeLock can become free. -/
theorem lockFree {P : Params} {g : Nat} {s : Sys} (hr : TidyReach P s) (hR : Running g s) (hcr : s.crashed = none) :
    ∃ s', To P g (fun k => k = 2 ∨ k = 7) s s' ∧ s'.lock = false := by
  cases hl : s.lock with
  | false => exact ⟨s, .refl hcr hR, hl⟩
  | true =>
    obtain ⟨i, t, ht, hh⟩ := holder_exists hr.reach hl
    obtain ⟨s', a1, a2, a3, a4, a5⟩ := unlock_possible _ (Nat.le_refl _) hr hR hcr ht hh
    refine ⟨s', ⟨a1, a2, a3, fun k u hu hk => a5 k u hu ?_ ?_⟩, a4⟩
    · cases hx : isSl u with
      | false => rfl
      | true => exact absurd (.inl (kind_sl.mp hx)) hk
    · cases u <;> first | rfl | exact absurd (.inr rfl) hk

theorem Running.conn' {P : Params} {g : Nat} {s : Sys} (hr : TidyReach P s) (hR : Running g s) :
    ∃ k, s.conn = some k := by
  rw [(life hr.reach).conn, lastIdx, if_neg]
  · exact ⟨_, rfl⟩
  · intro h
    have := hR.conn
    rw [List.length_eq_zero_iff.mp h] at this
    cases this

theorem Running.ccur {P : Params} {g : Nat} {s : Sys} (hr : TidyReach P s) (hR : Running g s) (hc : P.controller = true) :
    ∃ k, s.ccur = some k := by
  have hlf := life hr.reach
  obtain ⟨c0, h0, hd0⟩ := hlf.started hR.phase
  have := hlf.copen hc c0 h0 hd0
  rw [hlf.ccur, lastIdx, if_neg]
  · exact ⟨_, rfl⟩
  · intro h; rw [List.length_eq_zero_iff.mp h] at this; cases this

theorem Running.lt {g : Nat} {s : Sys} (hR : Running g s) : g < s.chans.length := by
  have := hR.top; omega

/-- How far pollReplyLoop is from its select. -/
def prRank : Thread → Nat
  | .prTop _ => 1
  | .prInit | .prSend _ _ => 2
  | .prGot _ => 3
  | _ => 0

/-- pollCh can be given room. -/
theorem pollRoom_aux {P : Params} {g j : Nat} : ∀ (n : Nat) {s : Sys} {t : Thread}, prRank t ≤ n → TidyReach P s →
    Running g s → s.crashed = none → s.threads[j]? = some t → kind t = 1 →
    ∃ s' ch, To P g (fun k => k = 1 ∨ k = 2) s s' ∧ s'.chans[g]? = some ch ∧ ch.poll.length < capacity := by
  intro n
  induction n with
  | zero =>
    intro s t hn hr hR hcr ht hk
    cases t <;> first | (cases hk; done) | (simp [prRank] at hn; done) | skip
    case prWait g0 me =>
      have htop := latest hr _ (List.mem_of_getElem? ht)
      cases hR.same htop
      have hg := hR.lt
      have h0 := List.getElem?_eq_getElem hg
      by_cases hroom : s.chans[g].poll.length < capacity
      · exact ⟨s, _, .refl hcr hR, h0, hroom⟩
      · cases hq : s.chans[g].poll with
        | nil => rw [hq] at hroom; simp [capacity] at hroom
        | cons p q =>
          have hst : s.step P j (.prWait g me) .next = some ({ s with
              chans := s.chans.set g { s.chans[g] with poll := q } }.goto j (.prGot me)) := by
            simp only [Sys.step, h0, hq]
          refine ⟨_, { s.chans[g] with poll := q }, .step hcr hR ht (.inl rfl) rfl hst hcr,
            List.getElem?_set_self hg, ?_⟩
          have h10 := (chans_ok hr.reach _ (List.getElem_mem hg)).poll
          rw [hq] at h10
          simp only [List.length_cons, capacity] at h10 ⊢
          omega
  | succ n ih =>
    intro s t hn hr hR hcr ht hk
    have next : ∀ {s' t'}, s.step P j t .next = some s' → s'.crashed = none →
        s'.threads = s.threads.set j t' → kind t' = 1 → prRank t' ≤ n →
        ∃ s' ch, To P g (fun k => k = 1 ∨ k = 2) s s' ∧ s'.chans[g]? = some ch ∧ ch.poll.length < capacity := by
      intro s' t' hst hcr' hth hk' hrk
      have h1 : To P g (fun k => k = 1 ∨ k = 2) s s' := .step hcr hR ht (.inl hk) rfl hst hcr'
      obtain ⟨s2, ch, h2, h3, h4⟩ := ih hrk (h1.leads.reach hr) h1.run hcr'
        (by rw [hth]; exact List.getElem?_set_self (List.getElem?_eq_some_iff.mp ht).1) hk'
      exact ⟨s2, ch, h1.trans h2, h3, h4⟩
    have hcur := hR.cur hr
    cases t <;> first | (cases hk; done) | skip
    case prWait g0 me => exact ih (by simp [prRank]) hr hR hcr ht rfl
    case prInit =>
      exact next (s' := s.goto j (.prTop (pollReplyImage (announced P.config)))) (by simp only [Sys.step, me_eq]) hcr rfl rfl
        (by simp only [prRank] at *; omega)
    case prTop me =>
      exact next (s' := s.goto j (.prWait g me)) (by simp only [Sys.step, hcur]; rfl) hcr rfl rfl (Nat.zero_le _)
    case prGot me =>
      exact next (s' := s.goto j (.prSend g me)) (by simp only [Sys.step, hcur]; rfl) hcr rfl rfl
        (by simp only [prRank] at *; omega)
    case prSend g0 me =>
      have htop := latest hr _ (List.mem_of_getElem? ht)
      cases hR.same htop
      have hg := hR.lt
      obtain ⟨s1, ch, h1, hc0, hroom⟩ := sendRoom hr hR hcr
      have ht1 := h1.keep j _ ht (by simp [kind])
      have hst : s1.step P j (.prSend g me) .next = some ({ s1 with
          chans := s1.chans.set g { ch with
            send := ch.send ++ [Payload.mk P.broadcast me]
            enq := ch.enq ++ [Payload.mk P.broadcast me] } }.goto j (.prTop me)) := by
        simp only [Sys.step, Sys.comm, hc0, Chans.pushSend, if_pos hroom]
        rfl
      have h2 : To P g (fun k => k = 1 ∨ k = 2) s1 _ := .step h1.alive h1.run ht1 (.inl rfl) rfl hst h1.alive
      have h3 : To P g (fun k => k = 1 ∨ k = 2) s s1 := h1.mono fun _ => .inr
      obtain ⟨s3, ch3, h4, h5, h6⟩ := ih (t := .prTop me) (by simp only [prRank] at *; omega)
        ((h3.trans h2).leads.reach hr) h2.run h1.alive
        (List.getElem?_set_self (List.getElem?_eq_some_iff.mp ht1).1) rfl
      exact ⟨s3, ch3, (h3.trans h2).trans h4, h5, h6⟩

theorem pollRoom {P : Params} {g : Nat} {s : Sys} (hr : TidyReach P s) (hR : Running g s) (hcr : s.crashed = none) :
    ∃ s' ch, To P g (fun k => k = 1 ∨ k = 2) s s' ∧ s'.chans[g]? = some ch ∧ ch.poll.length < capacity := by
  obtain ⟨u, hu, hk⟩ := loops_alive hr hcr hR 1 (.inl rfl)
  obtain ⟨j, hj⟩ := List.mem_iff_getElem?.mp hu
  exact pollRoom_aux _ (Nat.le_refl _) hr hR hcr hj hk

/-- How far recvLoop is from its select. -/
def rlRank : Thread → Nat
  | .rlTop => 1
  | .rlInit | .rlParse _ => 2
  | _ => 0

/-- recvCh can be given room. -/
theorem recvRoom_aux {P : Params} {g j : Nat} : ∀ (n : Nat) {s : Sys} {t : Thread}, rlRank t ≤ n → TidyReach P s →
    Running g s → s.crashed = none → s.threads[j]? = some t → kind t = 3 →
    ∃ s' ch, To P g (· = 3) s s' ∧ s'.chans[g]? = some ch ∧ ch.recv.length < capacity := by
  intro n
  induction n with
  | zero =>
    intro s t hn hr hR hcr ht hk
    cases t <;> first | (cases hk; done) | (simp [rlRank] at hn; done) | skip
    case rlWait g0 =>
      have htop := latest hr _ (List.mem_of_getElem? ht)
      cases hR.same htop
      have hg := hR.lt
      have h0 := List.getElem?_eq_getElem hg
      by_cases hroom : s.chans[g].recv.length < capacity
      · exact ⟨s, _, .refl hcr hR, h0, hroom⟩
      · cases hq : s.chans[g].recv with
        | nil => rw [hq] at hroom; simp [capacity] at hroom
        | cons p q =>
          have hst : s.step P j (.rlWait g) .next = some ({ s with
              chans := s.chans.set g { s.chans[g] with recv := q } }.goto j (.rlParse p)) := by
            simp only [Sys.step, h0, hq]
          refine ⟨_, { s.chans[g] with recv := q }, .step hcr hR ht rfl rfl hst hcr,
            List.getElem?_set_self hg, ?_⟩
          have h10 := (chans_ok hr.reach _ (List.getElem_mem hg)).recv
          rw [hq] at h10
          simp only [List.length_cons, capacity] at h10 ⊢
          omega
  | succ n ih =>
    intro s t hn hr hR hcr ht hk
    have next : ∀ {s' t' l}, s.step P j t .next = some s' → s'.crashed = none →
        s'.threads = s.threads.set j t' ++ l → kind t' = 3 → rlRank t' ≤ n →
        ∃ s' ch, To P g (· = 3) s s' ∧ s'.chans[g]? = some ch ∧ ch.recv.length < capacity := by
      intro s' t' l hst hcr' hth hk' hrk
      have hlt := (List.getElem?_eq_some_iff.mp ht).1
      have h1 : To P g (· = 3) s s' := .step hcr hR ht hk rfl hst hcr'
      obtain ⟨s2, ch, h2, h3, h4⟩ := ih hrk (h1.leads.reach hr) h1.run hcr'
        (by rw [hth, List.getElem?_append_left (by simpa using hlt)]; exact List.getElem?_set_self hlt) hk'
      exact ⟨s2, ch, h1.trans h2, h3, h4⟩
    have hcur := hR.cur hr
    cases t <;> first | (cases hk; done) | skip
    case rlWait g0 => exact ih (by simp [rlRank]) hr hR hcr ht rfl
    case rlInit =>
      exact next (t' := .rlTop) rfl hcr rfl rfl (by simp only [rlRank] at *; omega)
    case rlTop =>
      exact next (s' := s.goto j (.rlWait g)) (l := []) (by simp only [Sys.step, hcur]; rfl) hcr
        (List.append_nil _).symm rfl (Nat.zero_le _)
    case rlParse p =>
      obtain ⟨⟨q, e⟩, hu⟩ := unmarshal_total p.data
      have hrk : rlRank .rlTop ≤ n := by simp only [rlRank] at *; omega
      match q, e with
      | some q, none =>
        exact next (s' := { s.goto j .rlTop with threads := (s.goto j .rlTop).threads ++ [.hStart q] }) (t' := .rlTop)
          (by simp only [Sys.step, hu]) hcr rfl rfl hrk
      | none, e =>
        exact next (s' := { s with rejected := s.rejected ++ [p] }.goto j .rlTop) (t' := .rlTop) (l := [])
          (by simp only [Sys.step, hu]) hcr (List.append_nil _).symm rfl hrk
      | some q, some e =>
        exact next (s' := { s with rejected := s.rejected ++ [p] }.goto j .rlTop) (t' := .rlTop) (l := [])
          (by simp only [Sys.step, hu]) hcr (List.append_nil _).symm rfl hrk

theorem recvRoom {P : Params} {g : Nat} {s : Sys} (hr : TidyReach P s) (hR : Running g s) (hcr : s.crashed = none) :
    ∃ s' ch, To P g (· = 3) s s' ∧ s'.chans[g]? = some ch ∧ ch.recv.length < capacity := by
  obtain ⟨u, hu, hk⟩ := loops_alive hr hcr hR 3 (.inr (.inr (.inl rfl)))
  obtain ⟨j, hj⟩ := List.mem_iff_getElem?.mp hu
  exact recvRoom_aux _ (Nat.le_refl _) hr hR hcr hj hk

/-- How far pollLoop is from its select. -/
def plRank : Thread → Nat
  | .plTop => 1
  | .plGc | .plGot _ | .plPoll _ => 2
  | .plPollTop => 3
  | .plSend _ => 4
  | .plSendTop => 5
  | _ => 0

/-- Everything that pollLoop may have to wait for. -/
def Helpers (k : Nat) : Prop := k = 1 ∨ k = 2 ∨ k = 6 ∨ k = 7

/-- pollReplyCh of a controller can be given room. -/
theorem replyRoom_aux {P : Params} (hc : P.controller = true) {g j : Nat} : ∀ (n : Nat) {s : Sys} {t : Thread},
    plRank t ≤ n → TidyReach P s → Running g s → s.crashed = none → s.threads[j]? = some t → kind t = 6 →
    ∃ s' ch, To P g Helpers s s' ∧ s'.chans[g]? = some ch ∧ ch.pollReply.length < capacity := by
  intro n
  induction n with
  | zero =>
    intro s t hn hr hR hcr ht hk
    cases t <;> first | (cases hk; done) | (simp [plRank] at hn; done) | skip
    case plWait g0 k =>
      have htop := latest hr _ (List.mem_of_getElem? ht)
      cases hR.same htop.1
      have hg := hR.lt
      have h0 := List.getElem?_eq_getElem hg
      by_cases hroom : s.chans[g].pollReply.length < capacity
      · exact ⟨s, _, .refl hcr hR, h0, hroom⟩
      · cases hq : s.chans[g].pollReply with
        | nil => rw [hq] at hroom; simp [capacity] at hroom
        | cons p q =>
          have hst : s.step P j (.plWait g k) .next = some ({ s with
              chans := s.chans.set g { s.chans[g] with pollReply := q } }.goto j (.plGot p)) := by
            simp only [Sys.step, h0, hq]
          refine ⟨_, { s.chans[g] with pollReply := q }, .step hcr hR ht (.inr (.inr (.inl rfl))) rfl hst hcr,
            List.getElem?_set_self hg, ?_⟩
          have h10 := (chans_ok hr.reach _ (List.getElem_mem hg)).reply
          rw [hq] at h10
          simp only [List.length_cons, capacity] at h10 ⊢
          omega
  | succ n ih =>
    intro s t hn hr hR hcr ht hk
    -- first `To`, then one step of pollLoop
    have next : ∀ {s1 s' t' c}, To P g Helpers s s1 → s1.threads[j]? = some t → (Act.run j c).quiet = true →
        s1.step P j t c = some s' → s'.crashed = none →
        s'.threads = s1.threads.set j t' → kind t' = 6 → plRank t' ≤ n →
        ∃ s' ch, To P g Helpers s s' ∧ s'.chans[g]? = some ch ∧ ch.pollReply.length < capacity := by
      intro s1 s' t' c h0 ht1 hq hst hcr' hth hk' hrk
      have h1 : To P g Helpers s1 s' := .step h0.alive h0.run ht1 (.inr (.inr (.inl hk))) hq hst hcr'
      obtain ⟨s2, ch, h2, h3, h4⟩ := ih hrk ((h0.trans h1).leads.reach hr) h1.run hcr'
        (by rw [hth]; exact List.getElem?_set_self (List.getElem?_eq_some_iff.mp ht1).1) hk'
      exact ⟨s2, ch, (h0.trans h1).trans h2, h3, h4⟩
    have hcur := hR.cur hr
    have self : To P g Helpers s s := .refl hcr hR
    cases t <;> first | (cases hk; done) | skip
    case plWait g0 k => exact ih (by simp [plRank]) hr hR hcr ht rfl
    case plTop =>
      obtain ⟨k, hkk⟩ := hR.ccur hr hc
      exact next (s' := s.goto j (.plWait g k)) (c := .next) self ht rfl (by simp only [Sys.step, hcur, hkk]) hcr rfl rfl
        (Nat.zero_le _)
    case plSendTop =>
      exact next (s' := s.goto j (.plSend g)) (c := .next) self ht rfl (by simp only [Sys.step, hcur]; rfl) hcr rfl rfl
        (by simp only [plRank] at *; omega)
    case plPollTop =>
      exact next (s' := s.goto j (.plPoll g)) (c := .next) self ht rfl (by simp only [Sys.step, hcur]; rfl) hcr rfl rfl
        (by simp only [plRank] at *; omega)
    case plSend g0 =>
      have htop := latest hr _ (List.mem_of_getElem? ht)
      cases hR.same htop
      have hg := hR.lt
      obtain ⟨s1, ch, h1, hc0, hroom⟩ := sendRoom hr hR hcr
      have ht1 := h1.keep j _ ht (by simp [kind])
      have hst : ∃ s', s1.step P j (.plSend g) .next = some s' ∧ s'.crashed = none ∧
          s'.threads = s1.threads.set j .plPollTop := by
        simp only [Sys.step, Sys.comm, hc0, Chans.pushSend, if_pos hroom]
        exact ⟨_, rfl, h1.alive, rfl⟩
      obtain ⟨s', hst, hcr', hth⟩ := hst
      exact next (h1.mono fun _ h => .inr (.inl h)) ht1 rfl hst hcr' hth rfl (by simp only [plRank] at *; omega)
    case plPoll g0 =>
      have htop := latest hr _ (List.mem_of_getElem? ht)
      cases hR.same htop
      have hg := hR.lt
      obtain ⟨s1, ch, h1, hc0, hroom⟩ := pollRoom hr hR hcr
      have ht1 := h1.keep j _ ht (by simp [kind])
      have hst : ∃ s', s1.step P j (.plPoll g) .next = some s' ∧ s'.crashed = none ∧
          s'.threads = s1.threads.set j .plTop := by
        simp only [Sys.step, Sys.comm, hc0, Chans.pushPoll, if_pos hroom]
        exact ⟨_, rfl, h1.alive, rfl⟩
      obtain ⟨s', hst, hcr', hth⟩ := hst
      exact next (h1.mono fun _ h => h.elim .inl fun h => .inr (.inl h)) ht1 rfl hst hcr' hth rfl (by simp only [plRank] at *; omega)
    case plGc =>
      obtain ⟨s1, h1, hl⟩ := lockFree hr hR hcr
      have ht1 := h1.keep j _ ht (by simp [kind])
      have hst : ∃ s', s1.step P j .plGc (.clock fun _ => 0) = some s' ∧ s'.crashed = none ∧
          s'.threads = s1.threads.set j .plTop := by
        simp only [Sys.step, hl]
        exact ⟨_, rfl, h1.alive, rfl⟩
      obtain ⟨s', hst, hcr', hth⟩ := hst
      exact next (h1.mono fun _ h => h.elim (fun h => .inr (.inl h)) fun h => .inr (.inr (.inr h))) ht1 rfl hst hcr' hth rfl (by simp only [plRank] at *; omega)
    case plGot p =>
      obtain ⟨s1, h1, hl⟩ := lockFree hr hR hcr
      have ht1 := h1.keep j _ ht (by simp [kind])
      have h1' : To P g Helpers s s1 := h1.mono fun _ h => h.elim (fun h => .inr (.inl h)) fun h => .inr (.inr (.inr h))
      have hrk : plRank .plTop ≤ n := by simp only [plRank] at *; omega
      by_cases hi : ignored p = true
      · exact next (s' := { s1 with hist := s1.hist ++ [Op.reply p 0] }.goto j .plTop) (c := .at 0) (t' := .plTop) h1' ht1
          rfl (by simp only [Sys.step, if_pos hi]) h1.alive rfl rfl hrk
      · refine next (s' := { s1 with
            ctrl := s1.ctrl.pollReply p 0
            hist := s1.hist ++ [Op.reply p 0] }.goto j .plTop) (c := .at 0) (t' := .plTop) h1' ht1
          rfl ?_ h1.alive rfl rfl hrk
        simp only [Sys.step, if_neg hi, hl]
        rfl

theorem replyRoom {P : Params} (hc : P.controller = true) {g : Nat} {s : Sys} (hr : TidyReach P s) (hR : Running g s)
    (hcr : s.crashed = none) :
    ∃ s' ch, To P g Helpers s s' ∧ s'.chans[g]? = some ch ∧ ch.pollReply.length < capacity := by
  obtain ⟨u, hu, hk⟩ := loops_alive hr hcr hR 6 (.inr (.inr (.inr ⟨hc, .inl rfl⟩)))
  obtain ⟨j, hj⟩ := List.mem_iff_getElem?.mp hu
  exact replyRoom_aux hc _ (Nat.le_refl _) hr hR hcr hj hk

/-- No goroutine of a running node is stuck. -/
theorem live {P : Params} {g : Nat} {s : Sys} (hr : TidyReach P s) (hR : Running g s) (hcr : s.crashed = none)
    (hP : P.controller = true ∨ P.config.type ≠ StyleCode.stController) {i : Nat} {t : Thread}
    (ht : s.threads[i]? = some t) (hw : t.resting = false) :
    ∃ s' c s'', Leads P s s' ∧ s'.crashed = none ∧ s'.threads[i]? = some t ∧ (Act.run i c).quiet = true ∧
      s'.step P i t c = some s'' := by
  have hcur := hR.cur hr
  obtain ⟨_, hconn⟩ := hR.conn' hr
  have now : ∀ {c s''}, (Act.run i c).quiet = true → s.step P i t c = some s'' →
      ∃ s' c s'', Leads P s s' ∧ s'.crashed = none ∧ s'.threads[i]? = some t ∧ (Act.run i c).quiet = true ∧
        s'.step P i t c = some s'' := fun hq h => ⟨s, _, _, .refl P s, hcr, ht, hq, h⟩
  have later : ∀ {K s' c s''}, To P g K s s' → ¬ K (kind t) → (Act.run i c).quiet = true →
      s'.step P i t c = some s'' →
      ∃ s' c s'', Leads P s s' ∧ s'.crashed = none ∧ s'.threads[i]? = some t ∧ (Act.run i c).quiet = true ∧
        s'.step P i t c = some s'' := fun h hk hq hst => ⟨_, _, _, h.leads, h.alive, h.keep _ _ ht hk, hq, hst⟩
  have href := refs hr.reach _ (List.mem_of_getElem? ht)
  have htop := latest hr _ (List.mem_of_getElem? ht)
  cases t
  case prWait | slWait | rlWait | rdWait | plWait | duWait | done => cases hw
  case prInit => exact now (c := .next) rfl (by simp only [Sys.step, me_eq]; rfl)
  case prTop | prGot | slTop | rlTop | rdGot | hPollTop | hReplyTop | plSendTop | plPollTop =>
    exact now (c := .next) rfl (by simp only [Sys.step, hcur]; rfl)
  case rdTop b => exact now (c := .next) rfl (by simp only [Sys.step, hconn]; rfl)
  case prSend g0 me =>
    cases hR.same htop
    obtain ⟨s1, ch, h1, hc0, hroom⟩ := sendRoom hr hR hcr
    exact later (c := .next) h1 (by simp [kind]) rfl
      (by simp only [Sys.step, Sys.comm, hc0, Chans.pushSend, if_pos hroom]; rfl)
  case slCheck p =>
    exact now (c := .next) rfl (by simp only [Sys.step, (hR.nothing_closed hr.reach).2.1]; rfl)
  case slWrite p => exact now (c := .fail) rfl rfl
  case rlInit => exact now (c := .next) rfl rfl
  case rlParse p =>
    obtain ⟨⟨q, e⟩, hu⟩ := unmarshal_total p.data
    match q, e with
    | some q, none => exact now (c := .next) rfl (by simp only [Sys.step, hu]; rfl)
    | none, e => exact now (c := .next) rfl (by simp only [Sys.step, hu]; rfl)
    | some q, some e => exact now (c := .next) rfl (by simp only [Sys.step, hu]; rfl)
  case rdCheck b res =>
    have hs := (hR.nothing_closed hr.reach).2.1
    match res with
    | none => exact now (c := .next) rfl (by simp only [Sys.step, hs]; rfl)
    | some (n, src) =>
      cases hi : ipEqual P.localIP src.ip with
      | true => exact now (c := .next) rfl (by simp only [Sys.step, hs, hi]; rfl)
      | false => exact now (c := .next) rfl (by simp only [Sys.step, hs, hi]; rfl)
  case rdPush g0 b p =>
    cases hR.same htop
    obtain ⟨s1, ch, h1, hc0, hroom⟩ := recvRoom hr hR hcr
    exact later (c := .next) h1 (by simp [kind]) rfl
      (by simp only [Sys.step, Sys.comm, hc0, Chans.pushRecv, if_pos hroom]; rfl)
  case hStart p =>
    have : ∃ s'', s.step P i (.hStart p) .next = some s'' := by
      simp only [Sys.step]
      repeat' split
      all_goals exact ⟨_, rfl⟩
    obtain ⟨s'', h⟩ := this
    exact now (c := .next) rfl h
  case hPoll g0 p =>
    cases hR.same htop
    obtain ⟨s1, ch, h1, hc0, hroom⟩ := pollRoom hr hR hcr
    exact later (c := .next) h1 (by simp [kind]) rfl
      (by simp only [Sys.step, Sys.comm, hc0, Chans.pushPoll, if_pos hroom]; rfl)
  case hReply g0 p =>
    cases hR.same htop
    rcases hP with hc | hty
    · obtain ⟨s1, ch, h1, hc0, hroom⟩ := replyRoom hc hr hR hcr
      exact later (c := .next) h1 (by simp [kind, Helpers]) rfl
        (by simp only [Sys.step, Sys.comm, hc0, Chans.pushReply, if_pos hroom]; rfl)
    · have := (no_replies hty hr.reach).1 _ (List.mem_of_getElem? ht)
      cases this
  case plSend g0 =>
    cases hR.same htop
    obtain ⟨s1, ch, h1, hc0, hroom⟩ := sendRoom hr hR hcr
    exact later (c := .next) h1 (by simp [kind]) rfl
      (by simp only [Sys.step, Sys.comm, hc0, Chans.pushSend, if_pos hroom]; rfl)
  case plPoll g0 =>
    cases hR.same htop
    obtain ⟨s1, ch, h1, hc0, hroom⟩ := pollRoom hr hR hcr
    exact later (c := .next) h1 (by simp [kind]) rfl
      (by simp only [Sys.step, Sys.comm, hc0, Chans.pushPoll, if_pos hroom]; rfl)
  case plTop =>
    obtain ⟨k, hk⟩ := hR.ccur hr href
    exact now (c := .next) (s'' := s.goto i (.plWait g k)) rfl (by simp only [Sys.step, hcur, hk])
  case plGc =>
    obtain ⟨s1, h1, hl⟩ := lockFree hr hR hcr
    exact later (c := .clock fun _ => 0) h1 (by simp [kind]) rfl (by simp only [Sys.step, hl]; rfl)
  case plGot p =>
    obtain ⟨s1, h1, hl⟩ := lockFree hr hR hcr
    by_cases hi : ignored p = true
    · exact later (c := .at 0) h1 (by simp [kind]) rfl (by simp only [Sys.step, if_pos hi]; rfl)
    · exact later (c := .at 0) h1 (by simp [kind]) rfl (by simp only [Sys.step, if_neg hi, hl]; rfl)
  case duInit =>
    have : ∃ s'', s.step P i .duInit .next = some s'' := by
      simp only [Sys.step]
      split <;> exact ⟨_, rfl⟩
    obtain ⟨s'', h⟩ := this
    exact now (c := .next) rfl h
  case duTop =>
    obtain ⟨k, hk⟩ := hR.ccur hr href
    exact now (c := .next) rfl (by simp only [Sys.step, hk]; rfl)
  case duLock =>
    have key : ∃ s', Leads P s s' ∧ s'.crashed = none ∧ s'.lock = false ∧ s'.threads[i]? = some .duLock := by
      cases hl : s.lock with
      | false => exact ⟨s, .refl P s, hcr, hl, ht⟩
      | true =>
        obtain ⟨j, u, hu, hh⟩ := holder_exists hr.reach hl
        obtain ⟨s', a1, a2, _, a4, a5⟩ := unlock_possible _ (Nat.le_refl _) hr hR hcr hu hh
        exact ⟨s', a1, a2, a4, a5 i _ ht rfl rfl⟩
    obtain ⟨s', h1, h2, hl, h4⟩ := key
    have hst : ∃ s'', s'.step P i .duLock (.order s'.ctrl.output.keys 0) = some s'' := by
      simp only [Sys.step, hl, List.isPerm_iff.mpr (List.Perm.refl _), if_true]
      exact ⟨_, rfl⟩
    obtain ⟨s'', hst⟩ := hst
    exact ⟨s', _, s'', h1, h2, h4, rfl, hst⟩
  case duTick pend rest n =>
    match pend, rest with
    | [], [] => exact now (c := .next) rfl rfl
    | [], (a, r) :: rest => exact now (c := .next) rfl rfl
    | e :: pend, rest => exact now (c := .next) rfl (by simp only [Sys.step, hcur]; rfl)
  case duSend g0 e pend rest n =>
    cases hR.same htop
    obtain ⟨s1, ch, h1, hc0, hroom⟩ := sendRoom hr hR hcr
    exact later (c := .next) h1 (by simp [kind]) rfl
      (by simp only [Sys.step, Sys.comm, hc0, Chans.pushSend, if_pos hroom]; rfl)
  case caller d a =>
    obtain ⟨s1, h1, hl⟩ := lockFree hr hR hcr
    exact later (c := .next) h1 (by simp [kind]) rfl (by simp only [Sys.step, hl]; rfl)

/-- A handler at a full pollReplyCh of a Node, where nobody receives from it. -/
structure ReplyStuck (i : Nat) (p : ArtPollReply) (s : Sys) : Prop where
  thr : s.threads[i]? = some (.hReply 0 p)
  full : ∃ ch, s.chans[0]? = some ch ∧ capacity ≤ ch.pollReply.length

theorem replyStuck_step {P : Params} {s s' : Sys} {i p} (hr : Reach P s) (hP : P.controller = false)
    (h : ReplyStuck i p s) (hst : Step P s s') : ReplyStuck i p s' := by
  obtain ⟨hi, c0, h0, hc⟩ := h
  have hlt := (List.getElem?_eq_some_iff.mp hi).1
  have hlt0 := (List.getElem?_eq_some_iff.mp h0).1
  have old : ∀ {j : Nat} {t t'}, s.threads[j]? = some t → t ≠ .hReply 0 p →
      (s.threads.set j t')[i]? = some (.hReply 0 p) := by
    intro j t t' ht hn
    rw [List.getElem?_set_ne]
    · exact hi
    · rintro rfl; rw [ht] at hi; cases hi; exact hn rfl
  have app : ∀ {j : Nat} {t t'} {l : List Thread}, s.threads[j]? = some t → t ≠ .hReply 0 p →
      (s.threads.set j t' ++ l)[i]? = some (.hReply 0 p) := by
    intro j t t' l ht hn
    rw [List.getElem?_append_left (by simpa using hlt)]; exact old ht hn
  have set : ∀ {g : Nat} {ch ch' : Chans}, s.chans[g]? = some ch → ch.pollReply.length ≤ ch'.pollReply.length →
      ∃ ch, (s.chans.set g ch')[0]? = some ch ∧ capacity ≤ ch.pollReply.length := by
    intro g ch ch' hg hl
    by_cases hz : g = 0
    · subst hz
      rw [h0] at hg
      cases hg
      exact ⟨ch', List.getElem?_set_self hlt0, by omega⟩
    · rw [List.getElem?_set_ne hz]; exact ⟨c0, h0, hc⟩
  have same : ∃ ch, s.chans[0]? = some ch ∧ capacity ≤ ch.pollReply.length := ⟨c0, h0, hc⟩
  cases hst with
  | move ht m => exact ⟨old ht (by cases m <;> nofun), same⟩
  | popPoll ht hg hq => exact ⟨old ht nofun, set hg (Nat.le_refl _)⟩
  | popSend ht hg hq => exact ⟨old ht nofun, set hg (Nat.le_refl _)⟩
  | popRecv ht hg hq => exact ⟨old ht nofun, set hg (Nat.le_refl _)⟩
  | popReply ht hg hq =>
    have := (refs hr _ (List.mem_of_getElem? ht)).2.2
    rw [hP] at this
    cases this
  | pushSend ht k hg hl => exact ⟨old ht (by cases k <;> nofun), set hg (Nat.le_refl _)⟩
  | pushDmx ht hg hl => exact ⟨old ht nofun, set hg (Nat.le_refl _)⟩
  | pushRecv ht hg hl => exact ⟨old ht nofun, set hg (Nat.le_refl _)⟩
  | pushPoll ht hg hl => exact ⟨old ht nofun, set hg (Nat.le_refl _)⟩
  | pushOwn ht hg hl => exact ⟨old ht nofun, set hg (Nat.le_refl _)⟩
  | @pushReply j g q ch ht hg hl =>
    refine ⟨old ht ?_, set hg (by simp)⟩
    rintro ⟨⟩
    rw [h0] at hg
    cases hg
    omega
  | spawnReader ht => exact ⟨app ht nofun, same⟩
  | spawnHandler ht _ => exact ⟨app ht nofun, same⟩
  | startPanic _ _ => simp only [Sys.reset, Sys.panic, Sys.resetTables]; split <;> exact ⟨hi, same⟩
  | startFail _ _ => simp only [Sys.reset, Sys.resetTables]; split <;> exact ⟨hi, same⟩
  | start _ _ =>
    have : (s.chans ++ [Chans.make])[0]? = some c0 := by rw [List.getElem?_append_left hlt0]; exact h0
    simp only [Sys.reset, Sys.makeChannels, Sys.resetTables]; split <;> exact ⟨hi, c0, this, hc⟩
  | listen _ => exact ⟨by rw [List.getElem?_append_left hlt]; exact hi, same⟩
  | spawnCaller _ => exact ⟨by rw [List.getElem?_append_left hlt]; exact hi, same⟩
  | close _ _ hg _ => exact ⟨hi, set hg (Nat.le_refl _)⟩
  | _ => first | exact ⟨hi, same⟩ | (refine ⟨old (by assumption) ?_, same⟩; nofun)

end Verif.Conc
