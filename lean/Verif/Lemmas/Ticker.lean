import Verif.Lemmas.Traffic
import Verif.Lemmas.ConcRun
import Verif.Spec.Ticker
/-
Every ArtPoll that is put into sendCh belongs to one Start or to one firing of the poll ticker.
-/
namespace Verif.Conc
open Packet Code Artnet Spec

/-- pollLoop is about to put an ArtPoll into sendCh. -/
def wPolling (t : Thread) : Nat := if t.polling then 1 else 0

/-- The number of ArtPolls in the queues and of those that are about to be put there. -/
def wPolls (s : Sys) : Nat := total wArtPoll s.chans + total wPolling s.threads

theorem goroutines_polling (P : Params) : total wPolling P.goroutines = if P.controller then 1 else 0 := by
  simp only [Params.goroutines]
  split <;> simp [wPolling, Thread.polling]

theorem run_polls {P : Params} {s s' : Sys} {i : Nat} {t : Thread} {c : Choice} (hr : Reach P s)
    (ht : s.threads[i]? = some t) (h : Run P s i t c s') (h1 : c ≠ .tick) (h2 : c ≠ .gcTick) :
    wPolls s' = wPolls s ∧ s'.conns = s.conns := by
  have same : ∀ {t' : Thread}, wPolling t' = wPolling t → total wPolling (s.threads.set i t') = total wPolling s.threads :=
    fun h => total_same _ ht h
  cases h with
  | panic => exact ⟨rfl, rfl⟩
  | move m hq =>
    refine ⟨?_, rfl⟩
    simp only [wPolls, Sys.goto]
    rw [same (by cases m <;> first | rfl | exact absurd rfl (hq h1 h2).1)]
  | popPoll hg | popSend hg | popRecv hg | popReply hg | pushRecv hg | pushPoll hg | pushOwn hg | pushReply hg =>
    refine ⟨?_, rfl⟩
    simp only [wPolls, Sys.goto, Sys.setCh]
    rw [same (by rfl), total_same wArtPoll hg (by rfl)]
  | pushSend k hg =>
    refine ⟨?_, rfl⟩
    have a1 := total_ge wPolling ht
    have a2 := total_ge wArtPoll hg
    simp only [wPolls, Sys.goto, Sys.setCh, total_sub _ ht, total_sub _ hg]
    cases k with
    | pr =>
      have hm := (me_not (threads_ok hr _ (List.mem_of_getElem? ht)).1 P.broadcast).1
      simp [wPolling, Thread.polling, wArtPoll, List.countP_append, hm] at *
      omega
    | pl =>
      have hm := poll_is_poll P.ctrlBroadcast
      simp [wPolling, Thread.polling, wArtPoll, List.countP_append, hm] at *
      omega
  | @pushDmx _ _ e _ _ _ _ hg =>
    refine ⟨?_, rfl⟩
    have hb := (emitted_dmx hr).1 _ (List.mem_of_getElem? ht)
    have hm := dmx_not_poll hb.1 e.address
    simp only [wPolls, Sys.goto, Sys.setCh]
    rw [same (by rfl), total_same wArtPoll hg (by simp [wArtPoll, List.countP_append, hm])]
  | spawnReader | spawnHandler =>
    refine ⟨?_, rfl⟩
    simp only [wPolls, Sys.goto, total_append]
    rw [same (by rfl)]
    simp [wPolling, Thread.polling]
  | call _ hc =>
    refine ⟨?_, rfl⟩
    simp only [wPolls, Sys.goto]
    rw [same (by cases hc <;> rfl)]
  | reject | arrive | lose | accept | drop | gc | ignore | reply | lock | unlock | tickAt | sendDMX | write =>
    refine ⟨?_, rfl⟩
    simp only [wPolls, Sys.goto]
    rw [same (by rfl)]

/-- One more for every firing and for every Start that can listen. -/
theorem exec_polls {P : Params} {s s' : Sys} {a : Act} (hr : Reach P s) (h : s.exec P a = some s') :
    wPolls s' + (if P.controller then s.conns.length else 0) =
      wPolls s + (if pollFires s a then 1 else 0) + (if P.controller then s'.conns.length else 0) := by
  have hcr := (exec_Step h).1
  cases a with
  | run i c =>
    cases ht : s.threads[i]? with
    | none =>
      unfold Sys.exec at h
      rw [hcr, if_neg (by simp)] at h
      simp only [ht] at h
      cases h
    | some t =>
      rw [exec_run hcr ht] at h
      by_cases h1 : c = .tick
      · subst h1
        cases t <;> simp only [Sys.step] at h <;> first | (cases h; done) | skip
        · cases h
          have := total_set wPolling ht .plSendTop
          simp only [wPolling, Thread.polling] at this
          simp only [wPolls, Sys.goto, pollFires, ht, if_pos]
          simp at this ⊢
          omega
        · cases h
          have := total_set wPolling ht .duLock
          simp only [wPolling, Thread.polling] at this
          simp only [wPolls, Sys.goto, pollFires, ht]
          simp at this ⊢
          omega
      · have hfire : pollFires s (.run i c) = false := by
          unfold pollFires
          split
          · rename_i h2; cases h2; exact absurd rfl h1
          · rfl
        rw [hfire]
        by_cases h2 : c = .gcTick
        · subst h2
          cases t <;> simp only [Sys.step] at h <;> first | (cases h; done) | skip
          cases h
          have := total_set wPolling ht .plGc
          simp only [wPolling, Thread.polling] at this
          simp only [wPolls, Sys.goto]
          simp at this ⊢
          omega
        · obtain ⟨h3, h4⟩ := run_polls hr ht (step_Run h) h1 h2
          rw [h3, h4]
          simp
  | start =>
    unfold Sys.exec at h
    rw [hcr, if_neg (by simp)] at h
    simp only at h
    split at h
    · cases h
    · split at h <;> cases h <;> cases hc : P.controller <;>
        simp [wPolls, Sys.panic, Sys.makeChannels, Sys.resetTables, pollFires, wArtPoll, Chans.make]
  | listen ok =>
    unfold Sys.exec at h
    rw [hcr, if_neg (by simp)] at h
    simp only at h
    split at h
    · cases h
    · split at h <;> cases h
      · simp only [wPolls, total_append, goroutines_polling, pollFires, List.length_append, List.length_singleton]
        cases P.controller <;> simp <;> omega
      · simp [wPolls, pollFires]
  | stop =>
    unfold Sys.exec at h
    rw [hcr, if_neg (by simp)] at h
    simp only at h
    split at h
    · cases h
    · split at h <;> cases h <;> simp [wPolls, Sys.panic, pollFires]
  | stopStep =>
    have hcl : s.closeConn.length = s.conns.length := by
      simp only [Sys.closeConn]; split <;> simp
    unfold Sys.exec at h
    rw [hcr, if_neg (by simp)] at h
    simp only at h
    split at h
    · split at h
      · cases h; simp [wPolls, Sys.panic, pollFires]
      · split at h
        · cases h; simp [wPolls, Sys.panic, pollFires]
        · rename_i hg
          split at h <;> cases h
          · simp [wPolls, Sys.panic, pollFires]
          · simp only [wPolls, pollFires]
            rw [total_same wArtPoll hg (by rfl)]
            simp
    · split at h <;> cases h <;> simp [wPolls, pollFires, hcl]
    · split at h
      · cases h; simp [wPolls, Sys.panic, pollFires]
      · split at h <;> cases h <;> simp [wPolls, Sys.panic, pollFires]
    · cases h
  | register =>
    unfold Sys.exec at h
    rw [hcr, if_neg (by simp)] at h
    simp only at h
    split at h
    · cases h
    · split at h <;> cases h <;> simp [wPolls, pollFires]
  | deregister =>
    unfold Sys.exec at h
    rw [hcr, if_neg (by simp)] at h
    simp only at h
    split at h
    · cases h
    · split at h <;> cases h <;> simp [wPolls, pollFires]
  | call =>
    unfold Sys.exec at h
    rw [hcr, if_neg (by simp)] at h
    simp only at h
    split at h <;> cases h
    simp [wPolls, pollFires, wPolling, Thread.polling]

end Verif.Conc
