import Verif.Lemmas.FairCount
/-
Under fairness: datagrams in sendCh are written, polls are answered, announcements are processed.
-/
namespace Verif.Conc
open Packet Code Artnet Spec

/-! ### Replies on their way to the tables -/

def wRepT (p : ArtPollReply) : Thread → Nat
  | .hReplyTop q | .hReply _ q | .plGot q => if q = p then 1 else 0
  | _ => 0

def wRepC (p : ArtPollReply) (c : Chans) : Nat := c.pollReply.count p

theorem reply_conservation {P : Params} (hc : P.config.type = StyleCode.stController) {s : Sys} (h : Reach P s)
    (p : ArtPollReply) : total (wRepC p) s.chans + total (wRepT p) s.threads + s.hist.countP (isReplyOp p) =
      s.calls.countP (isReplyCall p) := by
  refine Reach.induct (P := P) (I := fun s =>
    total (wRepC p) s.chans + total (wRepT p) s.threads + s.hist.countP (isReplyOp p) =
      s.calls.countP (isReplyCall p)) ?_ ?_ h
  · rfl
  intro s s' hr ih _ hst
  cases hst with
  | move ht m =>
    simp only [Sys.goto, total_sub _ ht]
    have h1 := total_ge (wRepT p) ht
    have hw := fun t t' (m : Move P s t t') => show wRepT p t = wRepT p t' by cases m <;> rfl
    rw [hw _ _ m] at *
    omega
  | spawnReader ht | spawnHandler ht | arrive ht | lose ht
  | unlock ht | tickAt ht | reject ht | drop ht | accept ht | write ht =>
    have h1 := total_ge (wRepT p) ht
    simp only [Sys.goto, total_sub _ ht, total_append]
    simp [wRepT] at *
    omega
  | gc ht | lock ht | sendDMX ht =>
    have h1 := total_ge (wRepT p) ht
    simp only [Sys.goto, total_sub _ ht, List.countP_append]
    simp [wRepT, isReplyOp] at *
    omega
  | ignore ht | reply ht =>
    have h1 := total_ge (wRepT p) ht
    simp only [Sys.goto, total_sub _ ht, List.countP_append]
    simp [wRepT, isReplyOp, List.countP_cons] at *
    omega
  | @call i q f t' ht hh hcl =>
    have h1 := total_ge (wRepT p) ht
    simp only [Sys.goto, total_sub _ ht, List.countP_append]
    have hw : wRepT p t' = [(f, q)].countP (isReplyCall p) := by
      cases hcl with
      | poll => rfl
      | reply => simp [wRepT, isReplyCall, List.countP_cons]
      | other hn hr =>
        have : isReplyCall p (f, q) = false := by
          simp only [isReplyCall, beq_eq_false_iff_ne, ne_eq, Prod.mk.injEq]
          rintro ⟨rfl, rfl⟩
          exact hr p rfl rfl hc
        simp [wRepT, this]
    rw [hw]
    simp only [wRepT] at h1 ⊢
    omega
  | pushSend ht hk hg hl =>
    have h1 := total_ge (wRepT p) ht
    have h2 := total_ge (wRepC p) hg
    simp only [Sys.goto, Sys.setCh, total_sub _ ht, total_sub _ hg]
    cases hk <;> (simp [wRepT, wRepC] at *; omega)
  | pushDmx ht hg hq =>
    have h1 := total_ge (wRepT p) ht
    have h2 := total_ge (wRepC p) hg
    simp only [Sys.goto, Sys.setCh, total_sub _ ht, total_sub _ hg]
    simp [wRepT, wRepC] at *
    omega
  | popPoll ht hg hq | popSend ht hg hq | popRecv ht hg hq | popReply ht hg hq
  | pushRecv ht hg hq | pushPoll ht hg hq | pushOwn ht hg hq | pushReply ht hg hq =>
    have h1 := total_ge (wRepT p) ht
    have h2 := total_ge (wRepC p) hg
    simp only [Sys.goto, Sys.setCh, total_sub _ ht, total_sub _ hg]
    simp [wRepT, wRepC, hq, List.count_append, List.count_cons] at *
    omega
  | close hc h hg hd =>
    have h2 := total_ge (wRepC p) hg
    simp only [Sys.setCh, total_sub _ hg]
    simp [wRepC] at *
    omega
  | startPanic | startFail =>
    simp only [Sys.reset, Sys.panic, Sys.resetTables]
    split <;> simpa [isReplyOp] using ih
  | start =>
    simp only [Sys.reset, Sys.makeChannels, Sys.resetTables]
    split <;> simpa [wRepC, Chans.make, isReplyOp] using ih
  | listen =>
    have := goroutines_weightless P (wRepT p) rfl rfl rfl rfl rfl
    simp only [total_append]
    omega
  | spawnCaller => simpa [wRepT] using ih
  | panic | listenFail | stop | disconnect | disconnectC | ended | register | deregister | noRegister =>
    exact ih

/-- A write that does not fail. -/
theorem step_write {P : Params} {s s' : Sys} {i : Nat} {p : Payload} {c : Choice}
    (h : s.step P i (.slWrite p) c = some s') (hc : c ≠ .fail) :
    s' = { s with wire := s.wire ++ [p] }.goto i .slTop := by
  cases c <;> simp only [Sys.step] at h <;> first | (cases h; done) | (exact absurd rfl hc) | skip
  split at h
  · cases h
  · split at h <;> cases h
    rfl

namespace Exec
variable {P : Params} (e : Exec P)

/-- What has been written, what sendLoop is about to write, and what is in sendCh. -/
def line (g : Nat) (s : Sys) : List Payload := s.wire ++ s.threads.flatMap Thread.writing ++ s.queue g Chans.send

theorem line_step (hw : e.writes) {g : Nat} (hg : ∀ n, Running g (e.state n)) (n : Nat) :
    ∃ l, line g (e.state (n + 1)) = line g (e.state n) ++ l ∧
      (e.state (n + 1)).queue g Chans.enq = (e.state n).queue g Chans.enq ++ l := by
  rcases e.cases' n with ⟨i, t, c, ht, ha, hrun⟩ | ⟨_, l, hl, h⟩
  · have hsl := (senders (e.reach n)).1
    have hs := ((hg n).nothing_closed (e.reach n).reach).2.1
    have hat := latest (e.reach n) _ (List.mem_of_getElem? ht)
    have same : ∀ {s' : Sys} {t' : Thread}, s'.wire = (e.state n).wire → s'.threads = (e.state n).threads.set i t' →
        (s'.queue g Chans.send = (e.state n).queue g Chans.send ∧
          s'.queue g Chans.enq = (e.state n).queue g Chans.enq) → t.writing = t'.writing →
        ∃ l, line g s' = line g (e.state n) ++ l ∧ s'.queue g Chans.enq = (e.state n).queue g Chans.enq ++ l := by
      intro s' t' h1 h2 h3 h4
      exact ⟨[], by rw [line, h1, h2, h3.1, flat_same ht h4, List.append_nil, line], by rw [h3.2, List.append_nil]⟩
    have keep : ∀ {k : Nat} {ch ch' : Chans} {s' : Sys}, (e.state n).chans[k]? = some ch →
        s'.chans = (e.state n).chans.set k ch' → ch'.send = ch.send → ch'.enq = ch.enq →
        s'.queue g Chans.send = (e.state n).queue g Chans.send ∧
          s'.queue g Chans.enq = (e.state n).queue g Chans.enq :=
      fun hk h hs he => ⟨queue_set hk h fun _ => hs, queue_set hk h fun _ => he⟩
    by_cases hsw : ∃ p, t = .slWrite p
    · obtain ⟨p, rfl⟩ := hsw
      have hcf : c ≠ .fail := by rintro rfl; exact hw n i p ht ha
      have hx := e.next n
      rw [ha, exec_run (e.alive n) ht] at hx
      rw [step_write hx hcf]
      obtain ⟨e1, e2⟩ := flat_only ht hsl rfl .slTop
      refine ⟨[], ?_, (List.append_nil _).symm⟩
      simp only [line, Sys.goto, e1, e2, Thread.writing, Sys.queue]
      simp
    · have halive := e.alive (n + 1)
      revert hrun halive
      generalize e.state (n + 1) = s'
      intro hrun halive
      cases hrun with
      | panic => cases halive
      | move m _ =>
        cases m with
        | slStop h => rw [hs] at h; cases h
        | slFail => exact absurd ⟨_, rfl⟩ hsw
        | _ => exact same rfl rfl ⟨rfl, rfl⟩ rfl
      | write => exact absurd ⟨_, rfl⟩ hsw
      | @popSend _ g0 ch p q h hq =>
        cases (hg n).same hat
        obtain ⟨e1, e2⟩ := flat_only ht hsl rfl (.slCheck p)
        refine ⟨[], ?_, by rw [queue_eq h, queue_set_self h rfl, List.append_nil]⟩
        rw [line, line, queue_eq h, hq]
        rw [show (((e.state n).setCh g { ch with send := q, taken := ch.taken ++ [p] }).goto i
          (.slCheck p)).threads.flatMap Thread.writing = [p] from e2, e1, queue_set_self h rfl]
        simp [Thread.writing, Sys.goto, Sys.setCh]
      | @pushSend _ _ t' g0 p ch k h _ =>
        have hg0 : g0 = g := by cases k <;> exact (hg n).same hat
        subst hg0
        have h4 : t.writing = t'.writing := by cases k <;> rfl
        refine ⟨[p], ?_, by rw [queue_eq h, queue_set_self h rfl]⟩
        rw [line, line, queue_eq h, queue_set_self h rfl]
        rw [show (((e.state n).setCh g0 { ch with send := ch.send ++ [p], enq := ch.enq ++ [p] }).goto i
          t').threads.flatMap Thread.writing = (e.state n).threads.flatMap Thread.writing from flat_same ht h4]
        simp [Sys.goto, Sys.setCh]
      | @pushDmx _ g0 em pend rest now ch h _ =>
        cases (hg n).same hat
        refine ⟨[⟨em.address, em.data⟩], ?_, by rw [queue_eq h, queue_set_self h rfl]⟩
        rw [line, line, queue_eq h, queue_set_self h rfl]
        simp only [Sys.goto, Sys.setCh]
        rw [flat_same (t' := .duTick pend rest now) ht rfl]
        simp
      | popPoll h | popRecv h | popReply h | pushRecv h | pushPoll h | pushOwn h | pushReply h =>
        exact same rfl rfl (keep h rfl rfl rfl) rfl
      | spawnReader | spawnHandler =>
        refine ⟨[], ?_, (List.append_nil _).symm⟩
        simp only [line, Sys.goto, Sys.queue, List.flatMap_append]
        rw [flat_same (t' := .rlTop) ht rfl]
        simp [Thread.writing]
      | call _ hc => exact same rfl rfl ⟨rfl, rfl⟩ (by cases hc <;> rfl)
      | reject | arrive | lose | accept | drop | gc | ignore | reply | lock | unlock | tickAt | sendDMX =>
        exact same rfl rfl ⟨rfl, rfl⟩ rfl
  · refine ⟨[], ?_, by rw [h]; exact (List.append_nil _).symm⟩
    have : l.flatMap Thread.writing = [] := by
      rw [List.flatMap_eq_nil_iff]
      intro t ht
      obtain ⟨d, a, rfl⟩ := hl t ht
      rfl
    rw [h]
    simp [line, this, Sys.queue]

theorem line_adds (hw : e.writes) {g : Nat} (hg : ∀ n, Running g (e.state n)) {n m : Nat} (h : n ≤ m) :
    ∃ l, line g (e.state m) = line g (e.state n) ++ l ∧
      (e.state m).queue g Chans.enq = (e.state n).queue g Chans.enq ++ l := by
  induction h with
  | refl => exact ⟨[], by simp, by simp⟩
  | step _ ih =>
    obtain ⟨l, h1, h2⟩ := ih
    obtain ⟨l', h3, h4⟩ := e.line_step hw hg _
    exact ⟨l ++ l', by rw [h3, h1, List.append_assoc], by rw [h4, h2, List.append_assoc]⟩

theorem line_mono (hw : e.writes) {g : Nat} (hg : ∀ n, Running g (e.state n)) {n m : Nat} (h : n ≤ m) :
    line g (e.state n) <+: line g (e.state m) := by
  obtain ⟨l, hl, _⟩ := e.line_adds hw hg h
  exact ⟨l, hl.symm⟩

section wire
variable (hf : e.Fair) (hw : e.writes) {g : Nat} (hg : ∀ n, Running g (e.state n))
include hf hw hg

theorem wire_write {n i : Nat} {p : Payload} (ht : (e.state n).threads[i]? = some (.slWrite p)) :
    ∃ m, n ≤ m ∧ (e.state m).wire.length < (e.state (m + 1)).wire.length := by
  obtain ⟨m, c, hm, hm', ha, _⟩ := e.goes_on hf hg (.inr (.inr (by nofun))) ht rfl
  refine ⟨m, hm, ?_⟩
  have hcf : c ≠ .fail := by rintro rfl; exact hw m i p hm' ha
  have hx := e.next m
  rw [ha, exec_run (e.alive m) hm'] at hx
  rw [step_write hx hcf]
  simp [Sys.goto]

theorem wire_check {n i : Nat} {p : Payload} (ht : (e.state n).threads[i]? = some (.slCheck p)) :
    ∃ m, n ≤ m ∧ (e.state m).wire.length < (e.state (m + 1)).wire.length := by
  obtain ⟨m, c, hm, hm', _, hrun⟩ := e.goes_on hf hg (.inr (.inr (by nofun))) ht rfl
  have hlt := (List.getElem?_eq_some_iff.mp hm').1
  have hs := ((hg m).nothing_closed (e.reach m).reach).2.1
  have ha := e.alive (m + 1)
  have : (e.state (m + 1)).threads[i]? = some (.slWrite p) := by
    revert hrun ha
    generalize e.state (m + 1) = s'
    intro hrun ha
    cases hrun with
    | panic => cases ha
    | move m _ =>
      cases m with
      | slStop h => rw [hs] at h; cases h
      | slGo => exact List.getElem?_set_self hlt
    | pushSend k => cases k
  obtain ⟨m', h1, h2⟩ := e.wire_write hf hw hg this
  exact ⟨m', by omega, h2⟩

/-- What is queued or about to be written is written. -/
theorem wire_all (n : Nat) : ∃ m, n ≤ m ∧ line g (e.state n) <+: (e.state m).wire := by
  have hlen : ∀ n, (e.state n).wire.length +
      (((e.state n).threads.flatMap Thread.writing).length + ((e.state n).queue g Chans.send).length) =
      (line g (e.state n)).length := by
    intro n; simp only [line, List.length_append]; omega
  have hmono : ∀ {a b}, a ≤ b → (e.state a).wire.length ≤ (e.state b).wire.length := by
    intro a b h
    refine e.mono (f := fun s => s.wire.length) ?_ (fun _ _ => rfl) h
    intro s s' i t c _ _ h
    cases h with
    | write => simp [Sys.goto]
    | _ => exact Nat.le_refl _
  obtain ⟨m, hm, h⟩ := count_up (D := fun n => (e.state n).wire.length)
    (W := fun n => ((e.state n).threads.flatMap Thread.writing).length + ((e.state n).queue g Chans.send).length)
    (fun n => by rw [hlen, hlen]; exact (e.line_mono hw hg (Nat.le_succ n)).length_le) (fun n hpos => by
      have key : ∃ m, n ≤ m ∧ (e.state m).wire.length < (e.state (m + 1)).wire.length := by
        by_cases hq : (e.state n).queue g Chans.send = []
        · rw [hq, List.length_nil, Nat.add_zero] at hpos
          obtain ⟨p, hp⟩ := List.exists_mem_of_length_pos hpos
          obtain ⟨t, ht, hp⟩ := List.mem_flatMap.mp hp
          obtain ⟨i, hi⟩ := List.mem_iff_getElem?.mp ht
          cases t <;> first | (cases hp; done) | exact e.wire_check hf hw hg hi | exact e.wire_write hf hw hg hi
        · obtain ⟨x, l, hxl⟩ := List.exists_cons_of_ne_nil hq
          obtain ⟨m, l', t, hm, _, _, h1, h2⟩ := e.pops_send hf hg hxl
          cases h2
          obtain ⟨i, hi⟩ := List.mem_iff_getElem?.mp h1
          obtain ⟨m', h3, h4⟩ := e.wire_check hf hw hg hi
          exact ⟨m', by omega, h4⟩
      obtain ⟨m, hm, h⟩ := key
      exact ⟨m + 1, by omega, Nat.lt_of_le_of_lt (hmono hm) h⟩) n
  refine ⟨m, hm, ?_⟩
  have h1 := e.line_mono hw hg hm
  have h2 : (e.state m).wire <+: line g (e.state m) := ⟨_, (List.append_assoc _ _ _).symm⟩
  exact List.prefix_of_prefix_length_le h1 h2 (by rw [← hlen n]; exact h)

end wire

/-- Every datagram in sendCh is taken. -/
theorem taken_all (hf : e.Fair) {g : Nat} (hg : ∀ n, Running g (e.state n)) (n : Nat) :
    ∃ m, n ≤ m ∧ (e.state n).queue g Chans.enq <+: (e.state m).queue g Chans.taken := by
  have hfifo : ∀ n, (e.state n).queue g Chans.enq = (e.state n).queue g Chans.taken ++ (e.state n).queue g Chans.send := by
    intro n
    obtain ⟨ch, hc⟩ := e.chan hg n
    simp only [queue_eq hc]
    exact (chans_ok (e.reach n).reach ch (List.mem_of_getElem? hc)).fifo
  have step : ∀ n, (e.state n).queue g Chans.enq <+: (e.state (n + 1)).queue g Chans.enq ∧
      (e.state n).queue g Chans.taken <+: (e.state (n + 1)).queue g Chans.taken := by
    intro n
    rcases e.cases' n with ⟨i, t, c, ht, _, hrun⟩ | ⟨_, l, hl, h⟩
    · have set : ∀ {k : Nat} {ch ch' : Chans} {s' : Sys}, (e.state n).chans[k]? = some ch →
          s'.chans = (e.state n).chans.set k ch' → (ch.enq <+: ch'.enq) → (ch.taken <+: ch'.taken) →
          (e.state n).queue g Chans.enq <+: s'.queue g Chans.enq ∧
          (e.state n).queue g Chans.taken <+: s'.queue g Chans.taken := by
        intro k ch ch' s' hk h h1 h2
        by_cases hkg : k = g
        · subst hkg
          simp only [queue_eq hk, queue_set_self hk h]
          exact ⟨h1, h2⟩
        · rw [queue_set hk h fun h => absurd h hkg, queue_set hk h fun h => absurd h hkg]
          exact ⟨List.prefix_refl _, List.prefix_refl _⟩
      revert hrun
      generalize e.state (n + 1) = s'
      intro hrun
      cases hrun with
      | popSend h => exact set h rfl (List.prefix_refl _) ⟨_, rfl⟩
      | pushSend _ h => exact set h rfl ⟨_, rfl⟩ (List.prefix_refl _)
      | pushDmx h => exact set h rfl ⟨_, rfl⟩ (List.prefix_refl _)
      | popPoll h | popRecv h | popReply h | pushRecv h | pushPoll h | pushOwn h | pushReply h =>
        exact set h rfl (List.prefix_refl _) (List.prefix_refl _)
      | _ => exact ⟨List.prefix_refl _, List.prefix_refl _⟩
    · rw [h]; exact ⟨List.prefix_refl _, List.prefix_refl _⟩
  have mono : ∀ {a b}, a ≤ b → (e.state a).queue g Chans.enq <+: (e.state b).queue g Chans.enq ∧
      (e.state a).queue g Chans.taken <+: (e.state b).queue g Chans.taken := by
    intro a b h
    induction h with
    | refl => exact ⟨List.prefix_refl _, List.prefix_refl _⟩
    | step _ ih => exact ⟨ih.1.trans (step _).1, ih.2.trans (step _).2⟩
  have hlen := fun n => congrArg List.length (hfifo n)
  simp only [List.length_append] at hlen
  obtain ⟨m, hm, h⟩ := count_up (D := fun n => ((e.state n).queue g Chans.taken).length)
    (W := fun n => ((e.state n).queue g Chans.send).length)
    (fun n => by rw [← hlen, ← hlen]; exact (step n).1.length_le) (fun n hpos => by
      obtain ⟨x, hx⟩ := List.exists_mem_of_length_pos hpos
      obtain ⟨x, l, hxl⟩ := List.exists_cons_of_ne_nil (List.ne_nil_of_mem hx)
      obtain ⟨m, l', t, hm, h1, h2, _⟩ := e.pops_send hf hg hxl
      refine ⟨m + 1, by omega, ?_⟩
      have a1 := hlen m
      have a2 := hlen (m + 1)
      have a3 := (step m).1.length_le
      have a4 := (mono hm).2.length_le
      have a5 := congrArg List.length h1
      have a6 := congrArg List.length h2
      simp only [List.length_append, List.length_cons] at a5 a6
      omega) n
  refine ⟨m, hm, ?_⟩
  refine List.prefix_of_prefix_length_le (mono hm).1 ⟨_, (hfifo m).symm⟩ ?_
  rw [hlen n]
  exact h

/-! ### Polls -/

section polls
variable (hf : e.Fair) {g : Nat} (hg : ∀ n, Running g (e.state n))

/-- How many replies have been put into sendCh. -/
def ans (s : Sys) : Nat := (s.chans.flatMap Chans.enq).countP isReply

/-- How many replies are due. -/
def due (g : Nat) (s : Sys) : Nat := total wPollT s.threads + (s.queue g Chans.poll).length

theorem ans_eq (s : Sys) : ans s + total (fun c => c.poll.length) s.chans = total wPollC s.chans := by
  simp only [ans]
  generalize s.chans = l
  induction l with
  | nil => rfl
  | cons a l ih => simp only [List.flatMap_cons, List.countP_append, total_cons, ← ih, wPollC]; omega

include hg in
theorem ans_sum : ∃ K, ∀ n, ans (e.state n) + due g (e.state n) + K =
    (e.state n).calls.countP isPollCall + (e.state n).own := by
  refine ⟨total (fun c => c.poll.length) ((e.state 0).chans.take g), fun n => ?_⟩
  obtain ⟨ch, hc⟩ := e.chan hg n
  have h1 := poll_conservation (e.reach n).reach
  have h2 := ans_eq (e.state n)
  rw [total_newest (hg n) _ hc, e.old hg n] at h2
  simp only [due, queue_eq hc]
  omega

theorem calls_mono (f : Handler × AnyPacket → Bool) {n m : Nat} (h : n ≤ m) :
    (e.state n).calls.countP f ≤ (e.state m).calls.countP f := by
  refine e.mono (f := fun s => s.calls.countP f) ?_ (fun _ _ => rfl) h
  intro s s' i t c _ _ h
  cases h with
  | call => simp only [Sys.goto, List.countP_append]; omega
  | _ => exact Nat.le_refl _

theorem own_mono {n m : Nat} (h : n ≤ m) : (e.state n).own ≤ (e.state m).own := by
  refine e.mono (f := fun s => s.own) ?_ (fun _ _ => rfl) h
  intro s s' i t c _ _ h
  cases h with
  | pushOwn => simp [Sys.goto]
  | _ => exact Nat.le_refl _

include hf hg

theorem ans_send {n i g0 : Nat} {me : Bytes} (ht : (e.state n).threads[i]? = some (.prSend g0 me)) :
    ∃ m, n ≤ m ∧ total wPollT (e.state (m + 1)).threads + (((e.state (m + 1)).queue g Chans.poll).length) <
      total wPollT (e.state m).threads + (((e.state m).queue g Chans.poll).length) ∧
      (e.state (m + 1)).calls = (e.state m).calls ∧ (e.state (m + 1)).own = (e.state m).own := by
  obtain ⟨m, c, hm, hm', _, hrun⟩ := e.goes_on hf hg (.inr (.inr (by nofun))) ht rfl
  refine ⟨m, hm, ?_⟩
  have ha := e.alive (m + 1)
  revert hrun ha
  generalize e.state (m + 1) = s'
  intro hrun ha
  cases hrun with
  | panic => cases ha
  | move m _ => cases m
  | @pushSend _ _ _ _ p ch k h _ =>
    cases k
    rw [queue_set (ch' := { ch with send := ch.send ++ [⟨P.broadcast, me⟩], enq := ch.enq ++ [⟨P.broadcast, me⟩] })
      h rfl (fun _ => rfl)]
    have := total_set wPollT hm' (.prTop me)
    simp only [wPollT] at this
    simp only [Sys.goto, Sys.setCh, and_true]
    omega

theorem ans_got {n i : Nat} {me : Bytes} (ht : (e.state n).threads[i]? = some (.prGot me)) :
    ∃ m, n ≤ m ∧ due g (e.state (m + 1)) < due g (e.state m) ∧
      (e.state (m + 1)).calls = (e.state m).calls ∧ (e.state (m + 1)).own = (e.state m).own := by
  obtain ⟨m, c, hm, hm', _, hrun⟩ := e.goes_on hf hg (.inr (.inr (by nofun))) ht rfl
  have hlt := (List.getElem?_eq_some_iff.mp hm').1
  have ha := e.alive (m + 1)
  have : ∃ g0, (e.state (m + 1)).threads[i]? = some (.prSend g0 me) := by
    revert hrun ha
    generalize e.state (m + 1) = s'
    intro hrun ha
    cases hrun with
    | panic => cases ha
    | move m _ => cases m; exact ⟨_, List.getElem?_set_self hlt⟩
    | pushSend k => cases k
  obtain ⟨g0, h0⟩ := this
  obtain ⟨m', h1, h2⟩ := e.ans_send hf hg h0
  exact ⟨m', by omega, h2⟩

theorem ans_queue {n : Nat} (hq : (e.state n).queue g Chans.poll ≠ []) :
    ∃ m, n ≤ m ∧ due g (e.state (m + 1)) < due g (e.state m) ∧
      (e.state (m + 1)).calls = (e.state m).calls ∧ (e.state (m + 1)).own = (e.state m).own := by
  obtain ⟨x, l, hxl⟩ := List.exists_cons_of_ne_nil hq
  obtain ⟨m, l', t, hm, _, _, h1, me, rfl⟩ := e.pops_poll hf hg hxl
  obtain ⟨i, hi⟩ := List.mem_iff_getElem?.mp h1
  obtain ⟨m', h3, h4⟩ := e.ans_got hf hg hi
  exact ⟨m', by omega, h4⟩

theorem ans_push {n i g0 : Nat} {q : ArtPoll} (ht : (e.state n).threads[i]? = some (.hPoll g0 q)) :
    ∃ m, n ≤ m ∧ due g (e.state (m + 1)) < due g (e.state m) ∧
      (e.state (m + 1)).calls = (e.state m).calls ∧ (e.state (m + 1)).own = (e.state m).own := by
  have hat := latest (e.reach n) _ (List.mem_of_getElem? ht)
  cases (hg n).same hat
  obtain ⟨m, c, hm, hm', _, hrun⟩ := e.goes_on hf hg (.inr (.inr (by nofun))) ht rfl
  have ha := e.alive (m + 1)
  have : (e.state (m + 1)).queue g Chans.poll ≠ [] := by
    revert hrun ha
    generalize e.state (m + 1) = s'
    intro hrun ha
    cases hrun with
    | panic => cases ha
    | move m _ => cases m
    | pushSend k => cases k
    | pushPoll h _ => rw [queue_set_self h rfl]; simp
  obtain ⟨m', h1, h2⟩ := e.ans_queue hf hg this
  exact ⟨m', by omega, h2⟩

theorem ans_top {n i : Nat} {q : ArtPoll} (ht : (e.state n).threads[i]? = some (.hPollTop q)) :
    ∃ m, n ≤ m ∧ due g (e.state (m + 1)) < due g (e.state m) ∧
      (e.state (m + 1)).calls = (e.state m).calls ∧ (e.state (m + 1)).own = (e.state m).own := by
  obtain ⟨m, c, hm, hm', _, hrun⟩ := e.goes_on hf hg (.inr (.inr (by nofun))) ht rfl
  have hlt := (List.getElem?_eq_some_iff.mp hm').1
  have ha := e.alive (m + 1)
  have : ∃ g0, (e.state (m + 1)).threads[i]? = some (.hPoll g0 q) := by
    revert hrun ha
    generalize e.state (m + 1) = s'
    intro hrun ha
    cases hrun with
    | panic => cases ha
    | move m _ => cases m; exact ⟨_, List.getElem?_set_self hlt⟩
    | pushSend k => cases k
  obtain ⟨g0, h0⟩ := this
  obtain ⟨m', h1, h2⟩ := e.ans_push hf hg h0
  exact ⟨m', by omega, h2⟩

/-- All replies that are due are put into sendCh. -/
theorem ans_all (n : Nat) : ∃ m, n ≤ m ∧ ans (e.state n) + due g (e.state n) ≤ ans (e.state m) := by
  obtain ⟨K, hK⟩ := e.ans_sum hg
  have hsum : ∀ {a b}, a ≤ b → ans (e.state a) + due g (e.state a) ≤ ans (e.state b) + due g (e.state b) := by
    intro a b h
    have := hK a
    have := hK b
    have := e.calls_mono isPollCall h
    have := e.own_mono h
    omega
  have hmono : ∀ {a b}, a ≤ b → ans (e.state a) ≤ ans (e.state b) := by
    intro a b h
    refine e.mono (f := ans) ?_ (fun _ _ => rfl) h
    intro s s' i t c _ _ h
    have set : ∀ {k : Nat} {ch ch' : Chans} {s' : Sys}, s.chans[k]? = some ch →
        s'.chans = s.chans.set k ch' → ch.enq.countP isReply ≤ ch'.enq.countP isReply → ans s ≤ ans s' := by
      intro k ch ch' s' hk h hle
      obtain ⟨l1, l2, e1, e2⟩ := set_split hk
      simp only [ans, h, e2]
      rw [e1]
      simp only [List.flatMap_append, List.flatMap_cons, List.countP_append]
      omega
    cases h with
    | pushSend _ h => exact set h rfl (by rw [List.countP_append]; omega)
    | pushDmx h => exact set h rfl (by rw [List.countP_append]; omega)
    | popSend h | popPoll h | popRecv h | popReply h | pushRecv h | pushPoll h | pushOwn h | pushReply h =>
      exact set h rfl (Nat.le_refl _)
    | _ => exact Nat.le_refl _
  refine count_up (D := fun n => ans (e.state n)) (W := fun n => due g (e.state n))
    (fun n => hsum (Nat.le_succ n)) (fun n hpos => ?_) n
  have key : ∃ m, n ≤ m ∧ due g (e.state (m + 1)) < due g (e.state m) ∧
      (e.state (m + 1)).calls = (e.state m).calls ∧ (e.state (m + 1)).own = (e.state m).own := by
    by_cases hq : (e.state n).queue g Chans.poll = []
    · simp only [due, hq, List.length_nil, Nat.add_zero] at hpos
      have : ∃ t ∈ (e.state n).threads, 0 < wPollT t := by
        refine Classical.byContradiction fun hno => ?_
        have : total wPollT (e.state n).threads ≤ total (fun _ => 0) (e.state n).threads :=
          total_le_total fun t ht => Nat.le_of_not_lt fun h => hno ⟨t, ht, h⟩
        have h0 : total (fun _ : Thread => 0) (e.state n).threads = 0 := by
          generalize (e.state n).threads = l
          induction l with
          | nil => rfl
          | cons a l ih => simp [ih]
        omega
      obtain ⟨t, ht, hp⟩ := this
      obtain ⟨i, hi⟩ := List.mem_iff_getElem?.mp ht
      cases t <;> first
        | (cases hp; done) | exact e.ans_top hf hg hi | exact e.ans_push hf hg hi | exact e.ans_got hf hg hi
        | exact e.ans_send hf hg hi
    · exact e.ans_queue hf hg hq
  obtain ⟨m, hm, h1, h2, h3⟩ := key
  refine ⟨m + 1, by omega, ?_⟩
  have a1 := hK m
  have a2 := hK (m + 1)
  rw [h2, h3] at a2
  have a3 := hmono hm
  omega

end polls

/-! ### Announcements -/

section replies
variable (hf : e.Fair) {g : Nat} (hg : ∀ n, Running g (e.state n)) (p : ArtPollReply)

/-- How often packet `p` has been processed. -/
def proc (p : ArtPollReply) (s : Sys) : Nat := s.hist.countP (isReplyOp p)

/-- How often packet `p` is on its way from the call-back to pollLoop. -/
def way (g : Nat) (p : ArtPollReply) (s : Sys) : Nat := total (wRepT p) s.threads + (s.queue g Chans.pollReply).count p

include hg in
theorem proc_sum (hc : P.config.type = StyleCode.stController) : ∃ K, ∀ n,
    proc p (e.state n) + way g p (e.state n) + K = (e.state n).calls.countP (isReplyCall p) := by
  refine ⟨total (wRepC p) ((e.state 0).chans.take g), fun n => ?_⟩
  obtain ⟨ch, h⟩ := e.chan hg n
  have h1 := reply_conservation hc (e.reach n).reach p
  rw [total_newest (hg n) _ h, e.old hg n] at h1
  simp only [proc, way, queue_eq h]
  simp only [wRepC] at h1 ⊢
  omega

theorem proc_mono {n m : Nat} (h : n ≤ m) : proc p (e.state n) ≤ proc p (e.state m) := by
  refine e.mono (f := proc p) ?_ (fun _ _ => rfl) h
  intro s s' i t c _ _ h
  cases h with
  | gc | ignore | reply | lock | sendDMX => simp only [proc, Sys.goto, List.countP_append]; omega
  | _ => exact Nat.le_refl _

variable (hC : P.controller = true)
include hf hg hC

theorem proc_got {n i : Nat} (ht : (e.state n).threads[i]? = some (.plGot p)) :
    ∃ m, n ≤ m ∧ proc p (e.state m) < proc p (e.state (m + 1)) := by
  obtain ⟨m, c, hm, hm', _, hrun⟩ := e.goes_on hf hg (.inl hC) ht rfl
  refine ⟨m, hm, ?_⟩
  have ha := e.alive (m + 1)
  revert hrun ha
  generalize e.state (m + 1) = s'
  intro hrun ha
  cases hrun with
  | panic => cases ha
  | move m _ => cases m
  | pushSend k => cases k
  | ignore | reply => simp [proc, Sys.goto, List.countP_append, isReplyOp]

theorem proc_queue {n : Nat} (hq : p ∈ (e.state n).queue g Chans.pollReply) :
    ∃ m, n ≤ m ∧ proc p (e.state m) < proc p (e.state (m + 1)) := by
  obtain ⟨l1, l2, h⟩ := List.append_of_mem hq
  obtain ⟨m, t, hm, h1, h2⟩ := e.pops_all (q := fun s => s.queue g Chans.pollReply)
    (fun h => e.pops_reply hf hg hC h) l1 h
  cases h2
  obtain ⟨i, hi⟩ := List.mem_iff_getElem?.mp h1
  obtain ⟨m', h3, h4⟩ := e.proc_got hf hg p hC hi
  exact ⟨m', by omega, h4⟩

theorem proc_push {n i g0 : Nat} (ht : (e.state n).threads[i]? = some (.hReply g0 p)) :
    ∃ m, n ≤ m ∧ proc p (e.state m) < proc p (e.state (m + 1)) := by
  have hat := latest (e.reach n) _ (List.mem_of_getElem? ht)
  cases (hg n).same hat
  obtain ⟨m, c, hm, hm', _, hrun⟩ := e.goes_on hf hg (.inl hC) ht rfl
  have ha := e.alive (m + 1)
  have : p ∈ (e.state (m + 1)).queue g Chans.pollReply := by
    revert hrun ha
    generalize e.state (m + 1) = s'
    intro hrun ha
    cases hrun with
    | panic => cases ha
    | move m _ => cases m
    | pushSend k => cases k
    | pushReply h _ => rw [queue_set_self h rfl]; simp
  obtain ⟨m', h1, h2⟩ := e.proc_queue hf hg p hC this
  exact ⟨m', by omega, h2⟩

theorem proc_top {n i : Nat} (ht : (e.state n).threads[i]? = some (.hReplyTop p)) :
    ∃ m, n ≤ m ∧ proc p (e.state m) < proc p (e.state (m + 1)) := by
  obtain ⟨m, c, hm, hm', _, hrun⟩ := e.goes_on hf hg (.inl hC) ht rfl
  have hlt := (List.getElem?_eq_some_iff.mp hm').1
  have ha := e.alive (m + 1)
  have : ∃ g0, (e.state (m + 1)).threads[i]? = some (.hReply g0 p) := by
    revert hrun ha
    generalize e.state (m + 1) = s'
    intro hrun ha
    cases hrun with
    | panic => cases ha
    | move m _ => cases m; exact ⟨_, List.getElem?_set_self hlt⟩
    | pushSend k => cases k
  obtain ⟨g0, h0⟩ := this
  obtain ⟨m', h1, h2⟩ := e.proc_push hf hg p hC h0
  exact ⟨m', by omega, h2⟩

/-- All announcements on their way are processed. -/
theorem proc_all (hc : P.config.type = StyleCode.stController) (n : Nat) :
    ∃ m, n ≤ m ∧ proc p (e.state n) + way g p (e.state n) ≤ proc p (e.state m) := by
  obtain ⟨K, hK⟩ := e.proc_sum hg p hc
  refine count_up (D := fun n => proc p (e.state n)) (W := fun n => way g p (e.state n)) (fun n => ?_) (fun n hpos => ?_) n
  · have := hK n
    have := hK (n + 1)
    have := e.calls_mono (isReplyCall p) (n := n) (m := n + 1) (by omega)
    omega
  · have key : ∃ m, n ≤ m ∧ proc p (e.state m) < proc p (e.state (m + 1)) := by
      by_cases hq : p ∈ (e.state n).queue g Chans.pollReply
      · exact e.proc_queue hf hg p hC hq
      · simp only [way, List.count_eq_zero_of_not_mem hq, Nat.add_zero] at hpos
        have : ∃ t ∈ (e.state n).threads, 0 < wRepT p t := by
          refine Classical.byContradiction fun hno => ?_
          have : total (wRepT p) (e.state n).threads ≤ total (fun _ => 0) (e.state n).threads :=
            total_le_total fun t ht => Nat.le_of_not_lt fun h => hno ⟨t, ht, h⟩
          have h0 : total (fun _ : Thread => 0) (e.state n).threads = 0 := by
            generalize (e.state n).threads = l
            induction l with
            | nil => rfl
            | cons a l ih => simp [ih]
          omega
        obtain ⟨t, ht, hp⟩ := this
        obtain ⟨i, hi⟩ := List.mem_iff_getElem?.mp ht
        unfold wRepT at hp
        split at hp
        · split at hp
          · subst p; exact e.proc_top hf hg _ hC hi
          · cases hp
        · split at hp
          · subst p; exact e.proc_push hf hg _ hC hi
          · cases hp
        · split at hp
          · subst p; exact e.proc_got hf hg _ hC hi
          · cases hp
        · cases hp
    obtain ⟨m, hm, h⟩ := key
    exact ⟨m + 1, by omega, Nat.lt_of_le_of_lt (e.proc_mono p hm) h⟩

end replies

end Exec
end Verif.Conc
