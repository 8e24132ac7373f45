import Verif.Lemmas.Fair
/-
Under fairness every loop comes back to its select, every queue is emptied and the lock is released.
-/
namespace Verif.Conc
open Packet Code Artnet Spec

namespace Exec
variable {P : Params} (e : Exec P)

theorem chan {g : Nat} (hg : ∀ n, Running g (e.state n)) (n : Nat) : ∃ ch, (e.state n).chans[g]? = some ch :=
  ⟨_, List.getElem?_eq_getElem (hg n).lt⟩

theorem ready_of {g : Nat} (hg : ∀ n, Running g (e.state n)) {n i : Nat} {t : Thread}
    (ht : (e.state n).threads[i]? = some t) (hn : need g (e.state n) t) : (e.state n).ready P i t := by
  obtain ⟨c, s', hq, hs⟩ := can_step (e.reach n) (hg n) ht hn
  refine ⟨ht, ?_, c, s', hq, by rw [exec_run (e.alive n) ht]; exact hs⟩
  rintro a b rfl
  cases hn

theorem not_idle {g : Nat} (hg : ∀ n, Running g (e.state n)) (n : Nat) : e.act n ≠ .start := by
  intro ha
  obtain ⟨t, ht, hk⟩ := loops_alive (e.reach n) (e.alive n) (hg n) 1 (.inl rfl)
  have := idle_kind (e.tidy n ha t ht)
  omega

theorem cdown_const {g : Nat} (hg : ∀ n, Running g (e.state n)) (n : Nat) :
    (e.state n).cdown.length = (e.state 0).cdown.length := by
  induction n with
  | zero => rfl
  | succ n ih => exact (exec_same (e.next n) (e.not_idle hg n)).2.trans ih

/-- A loop that gets what it needs comes to its select again and again. -/
theorem returns (hf : e.Fair) {g : Nat} (hg : ∀ n, Running g (e.state n)) {κ : Nat} (hL : Loop P κ)
    (hw : ∀ t, kind t = κ → 0 < rk t → ∀ m, ∃ m', m ≤ m' ∧ need g (e.state m') t) :
    ∃ j : Nat, ∀ n, ∃ m t, n ≤ m ∧ (e.state m).threads[j]? = some t ∧ kind t = κ ∧ rk t = 0 := by
  obtain ⟨t, ht, hk⟩ := loops_alive (e.reach 0) (e.alive 0) (hg 0) κ hL
  obtain ⟨j, hj⟩ := List.mem_iff_getElem?.mp ht
  refine ⟨j, fun n => ?_⟩
  obtain ⟨t', h1, h2⟩ := e.keeps hg hj (by rw [hk]; exact hL) (Nat.zero_le n)
  exact e.visit hf hg hw _ (Nat.le_refl _) h1 (h2.trans hk)

theorem takes {n i : Nat} {t : Thread} (h : e.goes i t n) :
    ∃ c, c ≠ .tick ∧ c ≠ .gcTick ∧ Run P (e.state n) i t c (e.state (n + 1)) := by
  obtain ⟨ht, c, hq, ha⟩ := h
  refine ⟨c, ?_, ?_, e.step_run ht ha⟩ <;> (rintro rfl; cases hq)

/-- sendLoop takes the datagrams from sendCh. -/
theorem pops_send (hf : e.Fair) {g : Nat} (hg : ∀ n, Running g (e.state n)) {n : Nat} {x : Payload} {l : List Payload}
    (hq : (e.state n).queue g Chans.send = x :: l) :
    ∃ m l' t, n ≤ m ∧ (e.state m).queue g Chans.send = x :: l ++ l' ∧
      (e.state (m + 1)).queue g Chans.send = l ++ l' ∧ t ∈ (e.state (m + 1)).threads ∧ hasSend x t := by
  obtain ⟨j, hj⟩ := e.returns hf hg (κ := 2) (.inr (.inl rfl)) fun t hk h0 m => ⟨m, Nat.le_refl _, by
    cases t <;> first | (cases hk; done) | (cases h0; done) | trivial⟩
  refine e.pops hf (j := j) (t0 := .slWait g) (fun n => (e.turns g n).send) ?_ ?_ ?_ hq
  · intro n ht hne
    obtain ⟨ch, hc⟩ := e.chan hg n
    rw [queue_eq hc] at hne
    exact e.ready_of hg ht ⟨ch, hc, hne⟩
  · intro n hgo
    obtain ⟨c, _, _, hrun⟩ := e.takes hgo
    have ha := e.alive (n + 1)
    revert hrun ha
    generalize e.state (n + 1) = s'
    intro hrun ha
    cases hrun with
    | panic => cases ha
    | move m _ =>
      cases m with
      | slDown h hd => rw [((hg n).nothing_closed (e.reach n).reach).1 h] at hd; cases hd
    | pushSend k _ _ => cases k
    | popSend h hq => exact ⟨_, by rw [queue_eq h, queue_set_self h rfl]; exact hq⟩
  · intro n
    obtain ⟨m, t, hm, ht, hk, h0⟩ := hj n
    have := latest (e.reach m) _ (List.mem_of_getElem? ht)
    cases t <;> first | (cases hk; done) | (cases h0; done) | skip
    cases (hg m).same this
    exact ⟨m, hm, ht⟩

/-- recvLoop takes the payloads from recvCh. -/
theorem pops_recv (hf : e.Fair) {g : Nat} (hg : ∀ n, Running g (e.state n)) {n : Nat} {x : Payload} {l : List Payload}
    (hq : (e.state n).queue g Chans.recv = x :: l) :
    ∃ m l' t, n ≤ m ∧ (e.state m).queue g Chans.recv = x :: l ++ l' ∧
      (e.state (m + 1)).queue g Chans.recv = l ++ l' ∧ t ∈ (e.state (m + 1)).threads ∧ hasRecv x t := by
  obtain ⟨j, hj⟩ := e.returns hf hg (κ := 3) (.inr (.inr (.inl rfl))) fun t hk h0 m => ⟨m, Nat.le_refl _, by
    cases t <;> first | (cases hk; done) | (cases h0; done) | trivial⟩
  refine e.pops hf (j := j) (t0 := .rlWait g) (fun n => (e.turns g n).recv) ?_ ?_ ?_ hq
  · intro n ht hne
    obtain ⟨ch, hc⟩ := e.chan hg n
    rw [queue_eq hc] at hne
    exact e.ready_of hg ht ⟨ch, hc, hne⟩
  · intro n hgo
    obtain ⟨c, _, _, hrun⟩ := e.takes hgo
    have ha := e.alive (n + 1)
    revert hrun ha
    generalize e.state (n + 1) = s'
    intro hrun ha
    cases hrun with
    | panic => cases ha
    | move m _ =>
      cases m with
      | rlDown h hd => rw [((hg n).nothing_closed (e.reach n).reach).1 h] at hd; cases hd
    | pushSend k _ _ => cases k
    | popRecv h hq => exact ⟨_, by rw [queue_eq h, queue_set_self h rfl]; exact hq⟩
  · intro n
    obtain ⟨m, t, hm, ht, hk, h0⟩ := hj n
    have := latest (e.reach m) _ (List.mem_of_getElem? ht)
    cases t <;> first | (cases hk; done) | (cases h0; done) | skip
    cases (hg m).same this
    exact ⟨m, hm, ht⟩

/-- A queue whose head is taken has room again and again. -/
theorem room {α : Type} {q : Sys → List α} (hcap : ∀ n, (q (e.state n)).length ≤ capacity)
    (hpop : ∀ {n : Nat} {x : α} {l : List α}, q (e.state n) = x :: l → ∃ m, n ≤ m ∧ ∃ y, q (e.state m) = y :: q (e.state (m + 1)))
    (n : Nat) : ∃ m, n ≤ m ∧ (q (e.state m)).length < capacity := by
  cases hq : q (e.state n) with
  | nil => exact ⟨n, Nat.le_refl _, by rw [hq]; simp [capacity]⟩
  | cons x l =>
    obtain ⟨m, hm, y, hy⟩ := hpop hq
    refine ⟨m + 1, by omega, ?_⟩
    have := hcap m
    rw [hy, List.length_cons] at this
    omega

theorem cap {g : Nat} (hg : ∀ n, Running g (e.state n)) (n : Nat) :
    ((e.state n).queue g Chans.send).length ≤ capacity ∧ ((e.state n).queue g Chans.recv).length ≤ capacity ∧
    ((e.state n).queue g Chans.poll).length ≤ capacity ∧ ((e.state n).queue g Chans.pollReply).length ≤ capacity := by
  obtain ⟨ch, hc⟩ := e.chan hg n
  have := chans_ok (e.reach n).reach ch (List.mem_of_getElem? hc)
  simp only [queue_eq hc]
  exact ⟨this.send, this.recv, this.poll, this.reply⟩

theorem room_send (hf : e.Fair) {g : Nat} (hg : ∀ n, Running g (e.state n)) (n : Nat) :
    ∃ m, n ≤ m ∧ ∃ ch, (e.state m).chans[g]? = some ch ∧ ch.send.length < capacity := by
  obtain ⟨m, hm, h⟩ := e.room (q := fun s => s.queue g Chans.send) (fun n => (e.cap hg n).1)
    (fun hq => by
      obtain ⟨m, l', t, h1, h2, h3, _⟩ := e.pops_send hf hg hq
      exact ⟨m, h1, _, by simp only [h2, h3]; rfl⟩) n
  obtain ⟨ch, hc⟩ := e.chan hg m
  exact ⟨m, hm, ch, hc, by rw [← queue_eq (f := Chans.send) hc]; exact h⟩

theorem room_recv (hf : e.Fair) {g : Nat} (hg : ∀ n, Running g (e.state n)) (n : Nat) :
    ∃ m, n ≤ m ∧ ∃ ch, (e.state m).chans[g]? = some ch ∧ ch.recv.length < capacity := by
  obtain ⟨m, hm, h⟩ := e.room (q := fun s => s.queue g Chans.recv) (fun n => (e.cap hg n).2.1)
    (fun hq => by
      obtain ⟨m, l', t, h1, h2, h3, _⟩ := e.pops_recv hf hg hq
      exact ⟨m, h1, _, by simp only [h2, h3]; rfl⟩) n
  obtain ⟨ch, hc⟩ := e.chan hg m
  exact ⟨m, hm, ch, hc, by rw [← queue_eq (f := Chans.recv) hc]; exact h⟩

/-- pollReplyLoop takes the requests from pollCh. -/
theorem pops_poll (hf : e.Fair) {g : Nat} (hg : ∀ n, Running g (e.state n)) {n : Nat} {x : ArtPoll} {l : List ArtPoll}
    (hq : (e.state n).queue g Chans.poll = x :: l) :
    ∃ m l' t, n ≤ m ∧ (e.state m).queue g Chans.poll = x :: l ++ l' ∧
      (e.state (m + 1)).queue g Chans.poll = l ++ l' ∧ t ∈ (e.state (m + 1)).threads ∧ hasPoll x t := by
  obtain ⟨j, hj⟩ := e.returns hf hg (κ := 1) (.inl rfl) fun t hk h0 m => by
    cases t <;> first | (cases hk; done) | (cases h0; done) | exact e.room_send hf hg m | exact ⟨m, Nat.le_refl _, trivial⟩
  refine e.pops hf (j := j) (t0 := .prWait g (pollReplyImage (announced P.config))) (fun n => (e.turns g n).poll) ?_ ?_ ?_ hq
  · intro n ht hne
    obtain ⟨ch, hc⟩ := e.chan hg n
    rw [queue_eq hc] at hne
    exact e.ready_of hg ht ⟨ch, hc, hne⟩
  · intro n hgo
    obtain ⟨c, _, _, hrun⟩ := e.takes hgo
    have ha := e.alive (n + 1)
    revert hrun ha
    generalize e.state (n + 1) = s'
    generalize pollReplyImage (announced P.config) = me
    intro hrun ha
    cases hrun with
    | panic => cases ha
    | move m _ =>
      cases m with
      | prDown h hd => rw [((hg n).nothing_closed (e.reach n).reach).1 h] at hd; cases hd
    | pushSend k _ _ => cases k
    | popPoll h hq => exact ⟨_, by rw [queue_eq h, queue_set_self h rfl]; exact hq⟩
  · intro n
    obtain ⟨m, t, hm, ht, hk, h0⟩ := hj n
    have := latest (e.reach m) _ (List.mem_of_getElem? ht)
    have hok := threads_ok (e.reach m).reach _ (List.mem_of_getElem? ht)
    cases t <;> first | (cases hk; done) | (cases h0; done) | skip
    cases (hg m).same this
    have h1 := hok.1
    rw [show P.me = _ from me_eq P] at h1
    rw [← Except.ok.inj h1] at ht
    exact ⟨m, hm, ht⟩

theorem room_poll (hf : e.Fair) {g : Nat} (hg : ∀ n, Running g (e.state n)) (n : Nat) :
    ∃ m, n ≤ m ∧ ∃ ch, (e.state m).chans[g]? = some ch ∧ ch.poll.length < capacity := by
  obtain ⟨m, hm, h⟩ := e.room (q := fun s => s.queue g Chans.poll) (fun n => (e.cap hg n).2.2.1)
    (fun hq => by
      obtain ⟨m, l', t, h1, h2, h3, _⟩ := e.pops_poll hf hg hq
      exact ⟨m, h1, _, by simp only [h2, h3]; rfl⟩) n
  obtain ⟨ch, hc⟩ := e.chan hg m
  exact ⟨m, hm, ch, hc, by rw [← queue_eq (f := Chans.poll) hc]; exact h⟩

/-- nodeLock is free again and again. -/
theorem lock_free (hf : e.Fair) {g : Nat} (hg : ∀ n, Running g (e.state n)) (n : Nat) :
    ∃ m, n ≤ m ∧ (e.state m).lock = false := by
  cases hl : (e.state n).lock with
  | false => exact ⟨n, Nat.le_refl _, hl⟩
  | true =>
    obtain ⟨i, t, ht, hh⟩ := holder_exists (e.reach n).reach hl
    clear hl
    suffices ∀ (r : Nat) {n : Nat} {t : Thread}, rk t ≤ r → (e.state n).threads[i]? = some t → (holder t).isSome = true →
        ∃ m, n ≤ m ∧ (e.state m).lock = false from this _ (Nat.le_refl _) ht hh
    intro r
    induction r with
    | zero =>
      intro n t h1 h2 h3
      cases t <;> first | (cases h3; done) | (simp only [rk] at h1; omega)
    | succ r ih =>
      intro n t h1 h2 h3
      obtain ⟨m, hm, hk, c, ha⟩ := e.advance hf hg h2 fun _ m _ => by
        cases t <;> first | (cases h3; done) | exact e.room_send hf hg m | exact ⟨m, Nat.le_refl _, trivial⟩
      have hm' := hk m hm (Nat.le_refl _)
      rcases run_hold hm' (e.step_run hm' ha) (e.alive _) h3 with h | ⟨t', a1, a2, a3⟩
      · exact ⟨m + 1, by omega, h⟩
      · obtain ⟨m', b1, b2⟩ := ih (t := t') (by omega) a1 a2
        exact ⟨m', by omega, b2⟩

/-- pollLoop comes to its select again and again. -/
theorem pl_returns (hf : e.Fair) {g : Nat} (hg : ∀ n, Running g (e.state n)) (hc : P.controller = true) :
    ∃ j k : Nat, ∀ n, ∃ m, n ≤ m ∧ (e.state m).threads[j]? = some (.plWait g k) ∧ k + 1 = (e.state 0).cdown.length := by
  obtain ⟨j, hj⟩ := e.returns hf hg (κ := 6) (.inr (.inr (.inr ⟨hc, .inl rfl⟩))) fun t hk h0 m => by
    cases t <;> first
      | (cases hk; done) | (cases h0; done) | exact e.room_send hf hg m | exact e.room_poll hf hg m
      | exact e.lock_free hf hg m | exact ⟨m, Nat.le_refl _, trivial⟩
  refine ⟨j, (e.state 0).cdown.length - 1, fun n => ?_⟩
  obtain ⟨m, t, hm, ht, hk, h0⟩ := hj n
  have := latest (e.reach m) _ (List.mem_of_getElem? ht)
  cases t <;> first | (cases hk; done) | (cases h0; done) | skip
  obtain ⟨h1, h2⟩ := this
  cases (hg m).same h1
  rw [e.cdown_const hg m] at h2
  rename_i k
  have : k = (e.state 0).cdown.length - 1 := by omega
  subst this
  exact ⟨m, hm, ht, h2⟩

/-- pollLoop takes the packets from pollReplyCh, however often its tickers fire. -/
theorem pops_reply (hf : e.Fair) {g : Nat} (hg : ∀ n, Running g (e.state n)) (hc : P.controller = true)
    {n : Nat} {x : ArtPollReply} {l : List ArtPollReply}
    (hq : (e.state n).queue g Chans.pollReply = x :: l) :
    ∃ m l' t, n ≤ m ∧ (e.state m).queue g Chans.pollReply = x :: l ++ l' ∧
      (e.state (m + 1)).queue g Chans.pollReply = l ++ l' ∧ t ∈ (e.state (m + 1)).threads ∧ hasReply x t := by
  obtain ⟨j, k, hj⟩ := e.pl_returns hf hg hc
  refine e.pops hf (j := j) (t0 := .plWait g k) (fun n => (e.turns g n).reply) ?_ ?_ ?_ hq
  · intro n ht hne
    obtain ⟨ch, hc⟩ := e.chan hg n
    rw [queue_eq hc] at hne
    exact e.ready_of hg ht ⟨ch, hc, hne⟩
  · intro n hgo
    obtain ⟨c, hc1, hc2, hrun⟩ := e.takes hgo
    have ha := e.alive (n + 1)
    obtain ⟨_, _, _, hk⟩ := hj 0
    have hcd := ((hg n).nothing_closed (e.reach n).reach).2.2 hc
    have hcl := e.cdown_const hg n
    revert hrun ha
    generalize e.state (n + 1) = s'
    intro hrun ha
    cases hrun with
    | panic => cases ha
    | move m hm =>
      have := hm hc1 hc2
      cases m with
      | plTick => exact absurd rfl this.1
      | plGcTick => exact absurd rfl this.2.1
      | plDown hd =>
        rw [List.getLast?_eq_getElem?, show (e.state n).cdown.length - 1 = k by omega, hd] at hcd
        cases hcd
    | pushSend k _ _ => cases k
    | popReply h hq => exact ⟨_, by rw [queue_eq h, queue_set_self h rfl]; exact hq⟩
  · intro n
    obtain ⟨m, hm, ht, _⟩ := hj n
    exact ⟨m, hm, ht⟩

theorem room_reply (hf : e.Fair) {g : Nat} (hg : ∀ n, Running g (e.state n)) (hc : P.controller = true) (n : Nat) :
    ∃ m, n ≤ m ∧ ∃ ch, (e.state m).chans[g]? = some ch ∧ ch.pollReply.length < capacity := by
  obtain ⟨m, hm, h⟩ := e.room (q := fun s => s.queue g Chans.pollReply) (fun n => (e.cap hg n).2.2.2)
    (fun hq => by
      obtain ⟨m, l', t, h1, h2, h3, _⟩ := e.pops_reply hf hg hc hq
      exact ⟨m, h1, _, by simp only [h2, h3]; rfl⟩) n
  obtain ⟨ch, hc⟩ := e.chan hg m
  exact ⟨m, hm, ch, hc, by rw [← queue_eq (f := Chans.pollReply) hc]; exact h⟩

/-- What a goroutine that does not rest waits for comes again and again. -/
theorem served (hf : e.Fair) {g : Nat} (hg : ∀ n, Running g (e.state n))
    {i n : Nat} {t : Thread}
    (hP : P.controller = true ∨ P.config.type ≠ StyleCode.stController ∨ ∀ g p, t ≠ .hReply g p)
    (ht : (e.state n).threads[i]? = some t) (hw : t.resting = false) (m : Nat) : ∃ m', m ≤ m' ∧ need g (e.state m') t := by
  cases t <;> first
    | (cases hw; done) | exact e.room_send hf hg m | exact e.room_poll hf hg m | exact e.room_recv hf hg m
    | exact e.lock_free hf hg m | exact ⟨m, Nat.le_refl _, trivial⟩ | skip
  case hReply g0 p =>
    rcases hP with hc | hc | hc
    · exact e.room_reply hf hg hc m
    · have := (no_replies hc (e.reach n).reach).1 _ (List.mem_of_getElem? ht)
      cases this
    · exact absurd rfl (hc g0 p)

/-- Every goroutine that does not rest goes on. -/
theorem goes_on (hf : e.Fair) {g : Nat} (hg : ∀ n, Running g (e.state n))
    {i n : Nat} {t : Thread}
    (hP : P.controller = true ∨ P.config.type ≠ StyleCode.stController ∨ ∀ g p, t ≠ .hReply g p)
    (ht : (e.state n).threads[i]? = some t) (hw : t.resting = false) :
    ∃ m c, n ≤ m ∧ (e.state m).threads[i]? = some t ∧ e.act m = .run i c ∧
      Run P (e.state m) i t c (e.state (m + 1)) := by
  obtain ⟨m, hm, hk, c, ha⟩ := e.advance hf hg ht fun _ m _ => e.served hf hg hP ht hw m
  have := hk m hm (Nat.le_refl _)
  exact ⟨m, c, hm, this, ha, e.step_run this ha⟩

end Exec
end Verif.Conc
