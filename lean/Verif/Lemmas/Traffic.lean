import Verif.Lemmas.Count
import Verif.Lemmas.Order
import Verif.Spec.Traffic
/-
The number of datagrams of each kind that are put into sendCh.
-/
namespace Verif.Conc
open Packet Code Artnet Spec

theorem dmx_is_dmx {e : Emission} (h : IsDMX e) (a : UDPAddr) : isDmx ⟨a, e.data⟩ = true := by
  have h8 := byteAt_of_take h.2.1 (show 8 < 12 by decide)
  have h9 := byteAt_of_take h.2.1 (show 9 < 12 by decide)
  simp only [isDmx, h8, h9]
  simp [byteAt]

theorem dmx_not_poll {e : Emission} (h : IsDMX e) (a : UDPAddr) : isArtPoll ⟨a, e.data⟩ = false := by
  have h9 := byteAt_of_take h.2.1 (show 9 < 12 by decide)
  simp only [isArtPoll, h9]
  simp [byteAt]

theorem poll_is_poll (a : UDPAddr) : isArtPoll ⟨a, pollBytes⟩ = true := by
  have : (byteAt pollBytes 8 == 0x00 && byteAt pollBytes 9 == 0x20) = true := by decide
  exact this

theorem poll_not_dmx (a : UDPAddr) : isDmx ⟨a, pollBytes⟩ = false := by
  have : (byteAt pollBytes 8 == 0x00 && byteAt pollBytes 9 == 0x50) = false := by decide
  exact this

theorem image_not_poll (u : UDPAddr) (p : ArtPollReply) : isArtPoll ⟨u, pollReplyImage p⟩ = false := by
  have : byteAt (pollReplyImage p) 9 = 0x21 := by
    unfold pollReplyImage; simp only [List.append_assoc]; rfl
  simp only [isArtPoll, this]
  simp

theorem me_not {P : Params} {me : Bytes} (h : P.me = .ok me) (a : UDPAddr) :
    isArtPoll ⟨a, me⟩ = false ∧ isDmx ⟨a, me⟩ = false := by
  have : pollReplyImage (announced P.config) = me := Except.ok.inj ((me_eq P).symm.trans h)
  rw [← this]
  exact ⟨image_not_poll _ _, image_not_dmx _ _⟩

def wDmx (c : Chans) : Nat := c.enq.countP isDmx

/-- Every emission is one ArtDMX in a queue. -/
theorem dmx_conservation {P : Params} {s : Sys} (h : Reach P s) : total wDmx s.chans = s.emitted.length := by
  refine Reach.induct (P := P) (I := fun s => total wDmx s.chans = s.emitted.length) ?_ ?_ h
  · rfl
  intro s s' hr ih _ hst
  cases hst with
  | pushSend ht hk hg hl =>
    have h2 := total_ge wDmx hg
    simp only [Sys.goto, Sys.setCh, total_sub _ hg]
    cases hk with
    | pr =>
      have hm := (me_not (threads_ok hr _ (List.mem_of_getElem? ht)).1 P.broadcast).2
      simp [wDmx, List.countP_append, hm] at *
      omega
    | pl =>
      have hm := poll_not_dmx P.ctrlBroadcast
      simp [wDmx, List.countP_append, hm] at *
      omega
  | @pushDmx _ _ e _ _ _ _ ht hg hq =>
    have hb := (emitted_dmx hr).1 _ (List.mem_of_getElem? ht)
    have hm := dmx_is_dmx hb.1 e.address
    have h2 := total_ge wDmx hg
    simp only [Sys.goto, Sys.setCh, total_sub _ hg]
    simp [wDmx, List.countP_append, hm] at *
    omega
  | popPoll ht hg hq | popSend ht hg hq | popRecv ht hg hq | popReply ht hg hq
  | pushRecv ht hg hq | pushPoll ht hg hq | pushOwn ht hg hq | pushReply ht hg hq =>
    simp only [Sys.goto, Sys.setCh]
    rw [total_same wDmx hg (by rfl)]
    exact ih
  | close hc h hg hd =>
    simp only [Sys.setCh]
    rw [total_same wDmx hg (by rfl)]
    exact ih
  | startPanic | startFail =>
    simp only [Sys.reset, Sys.panic, Sys.resetTables]
    split <;> exact ih
  | start =>
    simp only [Sys.reset, Sys.makeChannels, Sys.resetTables]
    split <;> simpa [wDmx, Chans.make] using ih
  | _ => exact ih

def wArtPoll (c : Chans) : Nat := c.enq.countP isArtPoll

/-- pollLoop has put an ArtPoll into sendCh but not yet into pollCh. -/
def wHalf : Thread → Nat
  | .plPollTop | .plPoll _ => 1
  | _ => 0

/-- pollLoop puts every ArtPoll into sendCh and then into pollCh. -/
theorem artpoll_conservation {P : Params} {s : Sys} (h : Reach P s) :
    total wArtPoll s.chans = s.own + total wHalf s.threads := by
  refine Reach.induct (P := P) (I := fun s => total wArtPoll s.chans = s.own + total wHalf s.threads) ?_ ?_ h
  · rfl
  intro s s' hr ih _ hst
  cases hst with
  | move ht m =>
    simp only [Sys.goto]
    rw [total_same wHalf ht (by cases m <;> rfl)]
    exact ih
  | arrive ht | lose ht | gc ht | ignore ht | reply ht | lock ht
  | unlock ht | tickAt ht | sendDMX ht | reject ht | drop ht | accept ht | write ht =>
    simp only [Sys.goto]
    rw [total_same wHalf ht (by rfl)]
    exact ih
  | spawnReader ht | spawnHandler ht =>
    simp only [Sys.goto, total_append]
    rw [total_same wHalf ht (by rfl)]
    simpa [wHalf] using ih
  | call ht hh hc =>
    simp only [Sys.goto]
    rw [total_same wHalf ht (by cases hc <;> rfl)]
    exact ih
  | pushSend ht hk hg hl =>
    have h1 := total_ge wHalf ht
    have h2 := total_ge wArtPoll hg
    simp only [Sys.goto, Sys.setCh, total_sub _ ht, total_sub _ hg]
    cases hk with
    | pr =>
      have hm := (me_not (threads_ok hr _ (List.mem_of_getElem? ht)).1 P.broadcast).1
      simp [wHalf, wArtPoll, List.countP_append, hm] at *
      omega
    | pl =>
      have hm := poll_is_poll P.ctrlBroadcast
      simp [wHalf, wArtPoll, List.countP_append, hm] at *
      omega
  | @pushDmx _ _ e _ _ _ _ ht hg hq =>
    have hb := (emitted_dmx hr).1 _ (List.mem_of_getElem? ht)
    have hm := dmx_not_poll hb.1 e.address
    have h1 := total_ge wHalf ht
    have h2 := total_ge wArtPoll hg
    simp only [Sys.goto, Sys.setCh, total_sub _ ht, total_sub _ hg]
    simp [wHalf, wArtPoll, List.countP_append, hm] at *
    omega
  | popPoll ht hg hq | popSend ht hg hq | popRecv ht hg hq | popReply ht hg hq
  | pushRecv ht hg hq | pushPoll ht hg hq | pushOwn ht hg hq | pushReply ht hg hq =>
    have h1 := total_ge wHalf ht
    have h2 := total_ge wArtPoll hg
    simp only [Sys.goto, Sys.setCh, total_sub _ ht, total_sub _ hg]
    simp [wHalf, wArtPoll] at *
    omega
  | close hc h hg hd =>
    simp only [Sys.setCh]
    rw [total_same wArtPoll hg (by rfl)]
    exact ih
  | startPanic | startFail =>
    simp only [Sys.reset, Sys.panic, Sys.resetTables]
    split <;> exact ih
  | start =>
    simp only [Sys.reset, Sys.makeChannels, Sys.resetTables]
    split <;> simpa [wArtPoll, Chans.make] using ih
  | listen =>
    have := goroutines_weightless P wHalf rfl rfl rfl rfl rfl
    simp only [total_append]
    omega
  | spawnCaller => simpa [wHalf] using ih
  | panic | listenFail | stop | disconnect | disconnectC | ended | register | deregister | noRegister =>
    exact ih

/-- The pollLoops. -/
def wPoller : Thread → Nat
  | .plSendTop | .plSend _ | .plPollTop | .plPoll _ | .plTop | .plWait _ _ | .plGc | .plGot _ => 1
  | _ => 0

theorem goroutines_poller (P : Params) : total wPoller P.goroutines ≤ 1 := by
  simp only [Params.goroutines]; split <;> simp [wPoller]

/-- There are no more pollLoops than calls of Start that could listen. -/
theorem pollLoops {P : Params} {s : Sys} (h : Reach P s) : total wPoller s.threads ≤ s.conns.length := by
  refine Reach.induct (P := P) (I := fun s => total wPoller s.threads ≤ s.conns.length) ?_ ?_ h
  · exact Nat.zero_le _
  intro s s' _ ih _ hst
  have key : ∀ {i : Nat} {t : Thread} (t' : Thread), s.threads[i]? = some t → wPoller t' ≤ wPoller t →
      total wPoller (s.threads.set i t') ≤ s.conns.length := by
    intro i t t' ht hw
    have h1 := total_set wPoller ht t'
    omega
  cases hst with
  | move ht m => exact key _ ht (by cases m <;> first | exact Nat.le_refl _ | exact Nat.zero_le _)
  | popPoll ht | popSend ht | popRecv ht | popReply ht | pushRecv ht | pushPoll ht
  | pushOwn ht | pushDmx ht | pushReply ht =>
    exact key _ ht (by first | exact Nat.le_refl _ | exact Nat.zero_le _)
  | pushSend ht hk => exact key _ ht (by cases hk <;> exact Nat.le_refl _)
  | arrive ht | lose ht | write ht | gc ht | ignore ht | reply ht | lock ht | unlock ht | tickAt ht
  | sendDMX ht | drop ht | reject ht | accept ht =>
    exact key _ ht (by first | exact Nat.le_refl _ | exact Nat.zero_le _)
  | call ht hh hc => exact key _ ht (by cases hc <;> exact Nat.le_refl _)
  | spawnReader ht | spawnHandler ht =>
    have := key .rlTop ht (by first | exact Nat.le_refl _ | exact Nat.zero_le _)
    simp only [Sys.goto, total_append]
    simpa [wPoller] using this
  | start hc | startPanic | startFail =>
    simp only [Sys.reset, Sys.makeChannels, Sys.panic, Sys.resetTables]
    split <;> exact ih
  | listen hc =>
    have h3 := goroutines_poller P
    simp only [total_append, List.length_append, List.length_singleton]
    omega
  | disconnect | disconnectC =>
    have : s.closeConn.length = s.conns.length := by
      simp only [Sys.closeConn]; split <;> simp
    simpa only [this] using ih
  | spawnCaller => simpa [wPoller] using ih
  | _ => exact ih

theorem half_le {P : Params} {s : Sys} (h : Reach P s) : total wHalf s.threads ≤ s.conns.length := by
  refine Nat.le_trans (total_le_total ?_) (pollLoops h)
  intro t _
  cases t <;> first | exact Nat.le_refl _ | exact Nat.zero_le _

end Verif.Conc
