import Verif.Lemmas.ConcRead
/-
Invariants of the channels, of what is put into sendCh, and of the life cycle.
-/
namespace Verif.Conc
open Packet Code Artnet

/-- Capacities are respected and sendCh is a queue. -/
structure ChanOK (c : Chans) : Prop where
  send : c.send.length ≤ 10
  recv : c.recv.length ≤ 10
  poll : c.poll.length ≤ 10
  reply : c.pollReply.length ≤ 10
  fifo : c.enq = c.taken ++ c.send

theorem chans_ok {P : Params} {s : Sys} (h : Reach P s) : ∀ c ∈ s.chans, ChanOK c := by
  refine Reach.induct (P := P) (I := fun s => ∀ c ∈ s.chans, ChanOK c) ?_ ?_ h
  · intro t ht; cases ht
  intro s s' _ ih _ hst
  cases hst with
  | popPoll ht hg hq | popRecv ht hg hq | popReply ht hg hq | popSend ht hg hq =>
    obtain ⟨h1, h2, h3, h4, h5⟩ := ih _ (List.mem_of_getElem? hg)
    refine all_set ih ⟨?_, ?_, ?_, ?_, ?_⟩ <;> simp [hq] at * <;> first | omega | assumption
  | pushSend ht hk hg hl | pushDmx ht hg hl | pushRecv ht hg hl | pushPoll ht hg hl | pushOwn ht hg hl
  | pushReply ht hg hl =>
    obtain ⟨h1, h2, h3, h4, h5⟩ := ih _ (List.mem_of_getElem? hg)
    refine all_set ih ⟨?_, ?_, ?_, ?_, ?_⟩ <;> simp [capacity] at * <;>
      first | omega | assumption | (rw [h5, List.append_assoc])
  | close hc h hg hd =>
    obtain ⟨h1, h2, h3, h4, h5⟩ := ih _ (List.mem_of_getElem? hg)
    exact all_set ih ⟨h1, h2, h3, h4, h5⟩
  | startPanic | startFail =>
    simp only [Sys.reset, Sys.panic, Sys.resetTables]
    split <;> exact ih
  | start =>
    have h0 : ChanOK Chans.make := ⟨by decide, by decide, by decide, by decide, rfl⟩
    simp only [Sys.reset, Sys.makeChannels, Sys.resetTables]
    split <;> exact all_append ih (all_one h0)
  | _ => exact ih

/-- A goroutine that handles a poll reply. -/
def Thread.replying : Thread → Bool
  | .hReplyTop _ | .hReply _ _ => true
  | _ => false

theorem no_replies {P : Params} (hp : P.config.type ≠ StyleCode.stController) {s : Sys} (h : Reach P s) :
    (∀ t ∈ s.threads, t.replying = false) ∧ (∀ c ∈ s.chans, c.pollReply = []) := by
  refine Reach.induct (P := P) (I := fun s => (∀ t ∈ s.threads, t.replying = false) ∧
    (∀ c ∈ s.chans, c.pollReply = [])) ?_ ?_ h
  · exact ⟨nofun, nofun⟩
  intro s s' _ ih _ hst
  cases hst with
  | move ht m =>
    have hb := ih.1 _ (List.mem_of_getElem? ht)
    refine ⟨all_set ih.1 ?_, ih.2⟩
    cases m <;> first | rfl | exact hb
  | spawnReader ht | spawnHandler ht => exact ⟨all_append (all_set ih.1 rfl) (all_one rfl), ih.2⟩
  | call ht hh hc =>
    refine ⟨all_set ih.1 ?_, ih.2⟩
    cases hc with
    | reply h => exact absurd h hp
    | _ => rfl
  | write | reject | lose | drop | gc | ignore | reply | lock | unlock | tickAt | sendDMX | arrive | accept =>
    exact ⟨all_set ih.1 rfl, ih.2⟩
  | popPoll ht hg | popSend ht hg | popRecv ht hg | pushDmx ht hg | pushPoll ht hg | pushOwn ht hg
  | pushRecv ht hg =>
    have hb := ih.2 _ (List.mem_of_getElem? hg)
    exact ⟨all_set ih.1 rfl, all_set ih.2 hb⟩
  | pushSend ht hk hg =>
    have hb := ih.2 _ (List.mem_of_getElem? hg)
    exact ⟨all_set ih.1 (by cases hk <;> rfl), all_set ih.2 hb⟩
  | popReply ht hg hq =>
    exact absurd (ih.2 _ (List.mem_of_getElem? hg)) (by simp [hq])
  | pushReply ht hg => exact absurd (ih.1 _ (List.mem_of_getElem? ht)) (by simp [Thread.replying])
  | close hc h hg hd =>
    have hb := ih.2 _ (List.mem_of_getElem? hg)
    exact ⟨ih.1, all_set ih.2 hb⟩
  | startPanic | startFail =>
    simp only [Sys.reset, Sys.panic, Sys.resetTables]
    split <;> exact ih
  | start =>
    simp only [Sys.reset, Sys.makeChannels, Sys.resetTables]
    split <;> exact ⟨ih.1, all_append ih.2 (all_one rfl)⟩
  | listen => exact ⟨all_append ih.1 (all_goroutines P rfl rfl rfl rfl rfl), ih.2⟩
  | spawnCaller => exact ⟨all_append ih.1 (all_one rfl), ih.2⟩
  | panic | listenFail | stop | disconnect | disconnectC | ended | register | deregister
  | noRegister => exact ih

/-- A goroutine of the Controller, as opposed to the Node. -/
def Thread.ofController : Thread → Bool
  | .plSendTop | .plSend _ | .plPollTop | .plPoll _ | .plTop | .plWait _ _ | .plGc | .plGot _
  | .duInit | .duTop | .duWait _ | .duLock | .duTick _ _ _ | .duSend _ _ _ _ _ | .caller _ _ => true
  | _ => false

/-- The local variable `me` of pollReplyLoop, and which goroutines there are. -/
def ThreadOK (P : Params) (t : Thread) : Prop :=
  (match t with
    | .prTop me | .prWait _ me | .prGot me | .prSend _ me => P.me = .ok me
    | _ => True) ∧
  (t.ofController = true → P.controller = true)

theorem threads_ok {P : Params} {s : Sys} (h : Reach P s) : ∀ t ∈ s.threads, ThreadOK P t := by
  refine Reach.induct (P := P) (I := fun s => ∀ t ∈ s.threads, ThreadOK P t) ?_ ?_ h
  · intro t ht; cases ht
  intro s s' _ ih _ hst
  cases hst with
  | move ht m =>
    have hb := ih _ (List.mem_of_getElem? ht)
    refine all_set ih ?_
    cases m with
    | prInit h => exact ⟨h, nofun⟩
    | prTop | prGot => exact ⟨hb.1, nofun⟩
    | prDown | slDown | rlDown | plDown | duDown | slStop => exact ⟨trivial, nofun⟩
    | _ => exact ⟨trivial, fun h => hb.2 h⟩
  | spawnReader ht | spawnHandler ht =>
    exact all_append (all_set ih ⟨trivial, nofun⟩) (all_one ⟨trivial, nofun⟩)
  | pushSend ht hk =>
    have hb := ih _ (List.mem_of_getElem? ht)
    refine all_set ih ?_
    cases hk <;> exact hb
  | call ht hh hc => exact all_set ih (by cases hc <;> exact ⟨trivial, nofun⟩)
  | write | reject | lose | drop | sendDMX | arrive | accept | popSend | popRecv | pushRecv | pushPoll
  | pushReply =>
    exact all_set ih ⟨trivial, nofun⟩
  | popPoll ht => exact all_set ih ⟨(ih _ (List.mem_of_getElem? ht)).1, nofun⟩
  | gc ht | ignore ht | reply ht | lock ht | unlock ht | tickAt ht | popReply ht | pushDmx ht
  | pushOwn ht =>
    exact all_set ih ⟨trivial, fun _ => (ih _ (List.mem_of_getElem? ht)).2 rfl⟩
  | startPanic | startFail | start =>
    simp only [Sys.reset, Sys.panic, Sys.makeChannels, Sys.resetTables]
    split <;> exact ih
  | listen =>
    refine all_append ih (fun t ht => ?_)
    simp only [Params.goroutines] at ht
    split at ht
    · rename_i hp
      simp at ht
      rcases ht with rfl | rfl | rfl | rfl | rfl <;> exact ⟨trivial, fun _ => hp⟩
    · simp at ht
      rcases ht with rfl | rfl | rfl <;> exact ⟨trivial, nofun⟩
  | spawnCaller hp => exact all_append ih (all_one ⟨trivial, fun _ => hp⟩)
  | panic | close | listenFail | stop | disconnect | disconnectC | ended | register | deregister
  | noRegister => exact ih

/-- What is put into sendCh. -/
inductive Sent (P : Params) (emitted : List Emission) (p : Payload) : Prop
  | reply (me : Bytes) (h : P.me = .ok me) (hp : p = ⟨P.broadcast, me⟩)
  | poll (hc : P.controller = true) (hp : p = ⟨P.ctrlBroadcast, pollBytes⟩)
  | dmx (e : Emission) (he : e ∈ emitted) (hp : p = ⟨e.address, e.data⟩)

theorem Sent.mono {P : Params} {es es' : List Emission} {p : Payload} (h : Sent P es p)
    (hs : ∀ e ∈ es, e ∈ es') : Sent P es' p := by
  cases h with
  | reply me h hp => exact .reply me h hp
  | poll hc hp => exact .poll hc hp
  | dmx e he hp => exact .dmx e (hs e he) hp

theorem enq_sent {P : Params} {s : Sys} (h : Reach P s) : ∀ c ∈ s.chans, ∀ p ∈ c.enq, Sent P s.emitted p := by
  refine Reach.induct (P := P) (I := fun s => ∀ c ∈ s.chans, ∀ p ∈ c.enq, Sent P s.emitted p) ?_ ?_ h
  · intro t ht; cases ht
  intro s s' hr ih _ hst
  cases hst with
  | popPoll ht hg hq | popRecv ht hg hq | popReply ht hg hq | popSend ht hg hq
  | pushRecv ht hg hl | pushPoll ht hg hl | pushOwn ht hg hl | pushReply ht hg hl =>
    have hb := ih _ (List.mem_of_getElem? hg)
    exact all_set ih hb
  | pushSend ht hk hg hl =>
    have hb := threads_ok hr _ (List.mem_of_getElem? ht)
    refine all_set ih (all_append (ih _ (List.mem_of_getElem? hg)) (all_one ?_))
    cases hk with
    | pr => exact .reply _ hb.1 rfl
    | pl => exact .poll (hb.2 rfl) rfl
  | @pushDmx _ _ e _ _ _ _ ht hg hl =>
    have hm := fun c hc p hp => Sent.mono (es' := s.emitted ++ [e]) (ih c hc p hp)
      (fun e he => List.mem_append_left _ he)
    refine all_set hm (all_append (hm _ (List.mem_of_getElem? hg)) (all_one ?_))
    exact .dmx e (List.mem_append_right _ (List.mem_singleton.mpr rfl)) rfl
  | close hc h hg hd =>
    have hb := ih _ (List.mem_of_getElem? hg)
    exact all_set ih hb
  | startPanic | startFail =>
    simp only [Sys.reset, Sys.panic, Sys.resetTables]
    split <;> exact ih
  | start =>
    simp only [Sys.reset, Sys.makeChannels, Sys.resetTables]
    split <;> exact all_append ih (all_one (fun p hp => nomatch hp))
  | _ => exact ih

def wWrite (x : Payload) (t : Thread) : Nat := t.writing.count x
def wTaken (x : Payload) (c : Chans) : Nat := c.taken.count x

/-- What is written, or about to be, was taken from a sendCh, each once. -/
theorem wire_taken {P : Params} {s : Sys} (h : Reach P s) (x : Payload) :
    s.wire.count x + total (wWrite x) s.threads ≤ total (wTaken x) s.chans := by
  refine Reach.induct (P := P) (I := fun s => s.wire.count x + total (wWrite x) s.threads ≤
    total (wTaken x) s.chans) ?_ ?_ h
  · exact Nat.le_refl _
  intro s s' _ ih _ hst
  cases hst with
  | move ht m =>
    simp only [Sys.goto, total_sub _ ht]
    have h1 := total_ge (wWrite x) ht
    have hw := fun t t' (m : Move P s t t') => show wWrite x t' ≤ wWrite x t by
      cases m <;> first | exact Nat.le_refl _ | exact Nat.zero_le _
    have := hw _ _ m
    omega
  | spawnReader ht | spawnHandler ht | arrive ht | lose ht | gc ht | ignore ht | reply ht | lock ht
  | unlock ht | tickAt ht | sendDMX ht | reject ht | drop ht | accept ht =>
    have h1 := total_ge (wWrite x) ht
    simp only [Sys.goto, total_sub _ ht, total_append]
    simp [wWrite, Thread.writing] at *
    omega
  | write ht =>
    have h1 := total_ge (wWrite x) ht
    simp only [Sys.goto, total_sub _ ht, List.count_append]
    simp [wWrite, Thread.writing] at *
    omega
  | call ht hh hc =>
    have h1 := total_ge (wWrite x) ht
    simp only [Sys.goto, total_sub _ ht]
    have hw : ∀ h p t', Calls P h p t' → wWrite x t' = 0 := by intro h p t' hc; cases hc <;> rfl
    rw [hw _ _ _ hc]
    omega
  | pushSend ht hk hg hl =>
    have h1 := total_ge (wWrite x) ht
    have h2 := total_ge (wTaken x) hg
    simp only [Sys.goto, Sys.setCh, total_sub _ ht, total_sub _ hg]
    have hw : ∀ t t' g p, Sends P t t' g p → wWrite x t = wWrite x t' := by
      intro t t' g p hc; cases hc <;> rfl
    rw [hw _ _ _ _ hk] at *
    simp [wTaken] at *
    omega
  | popPoll ht hg hq | popSend ht hg hq | popRecv ht hg hq | popReply ht hg hq | pushDmx ht hg hq
  | pushRecv ht hg hq | pushPoll ht hg hq | pushOwn ht hg hq | pushReply ht hg hq =>
    have h1 := total_ge (wWrite x) ht
    have h2 := total_ge (wTaken x) hg
    simp only [Sys.goto, Sys.setCh, total_sub _ ht, total_sub _ hg]
    simp [wWrite, wTaken, Thread.writing, List.count_append] at *
    omega
  | close hc h hg hd =>
    have h2 := total_ge (wTaken x) hg
    simp only [Sys.setCh, total_sub _ hg]
    simp [wTaken] at *
    omega
  | startPanic | startFail =>
    simp only [Sys.reset, Sys.panic, Sys.resetTables]
    split <;> exact ih
  | start =>
    simp only [Sys.reset, Sys.makeChannels, Sys.resetTables]
    split <;> simpa [wTaken, Chans.make] using ih
  | listen =>
    have := goroutines_weightless P (wWrite x) rfl rfl rfl rfl rfl
    simp only [total_append]
    omega
  | spawnCaller => simpa [wWrite, Thread.writing] using ih
  | panic | listenFail | stop | disconnect | disconnectC | ended | register | deregister | noRegister =>
    exact ih

/-- Whatever was written was put into a sendCh before. -/
theorem wire_sent {P : Params} {s : Sys} (h : Reach P s) : ∀ p ∈ s.wire, Sent P s.emitted p := by
  intro p hp
  have h1 := wire_taken h p
  have h2 := List.count_pos_iff.mpr hp
  have h3 : 0 < total (wTaken p) s.chans := by omega
  have : ∃ c ∈ s.chans, p ∈ c.taken := by
    rw [show total (wTaken p) s.chans = (s.chans.flatMap Chans.taken).count p from
      (count_flatMap_total p Chans.taken s.chans).symm] at h3
    obtain ⟨c, hc, hm⟩ := List.mem_flatMap.mp (List.count_pos_iff.mp h3)
    exact ⟨c, hc, hm⟩
  obtain ⟨c, hc, hm⟩ := this
  exact enq_sent h c hc p (by rw [(chans_ok h c hc).fifo]; exact List.mem_append_left _ hm)

end Verif.Conc
