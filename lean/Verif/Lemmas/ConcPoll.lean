import Verif.Lemmas.ConcChan
import Verif.Lemmas.Tick
import Verif.Lemmas.Config
/-
Counting polls and poll replies; the datagrams of the update loop.
-/
namespace Verif.Conc
open Packet Code Artnet Spec

theorem me_eq (P : Params) : P.me = .ok (pollReplyImage (announced P.config)) := by
  simp only [Params.me, artPollReplyFromConfig_eq, bind, Except.bind, pure, Except.pure]
  rw [ArtPollReply.marshal_eq, ArtPollReply.image_eq]

theorem tickAt_dmx (c : Ctrl) (a : Address) (r : Ref) (now : Int) : ∀ e ∈ (c.tickAt a r now).2, IsDMX e := by
  rw [tickAt_eq]
  split
  · exact all_one (datagram_facts r _ _ a).1
  · exact nofun

/-- The datagrams a goroutine is about to send are ArtDMX datagrams. -/
def DmxOK : Thread → Prop
  | .duTick pend _ _ => ∀ e ∈ pend, IsDMX e
  | .duSend _ e pend _ _ => IsDMX e ∧ ∀ e ∈ pend, IsDMX e
  | _ => True

theorem emitted_dmx {P : Params} {s : Sys} (h : Reach P s) :
    (∀ t ∈ s.threads, DmxOK t) ∧ ∀ e ∈ s.emitted, IsDMX e := by
  refine Reach.induct (P := P) (I := fun s => (∀ t ∈ s.threads, DmxOK t) ∧ ∀ e ∈ s.emitted, IsDMX e) ?_ ?_ h
  · exact ⟨nofun, nofun⟩
  intro s s' _ ih _ hst
  cases hst with
  | move ht m =>
    have hb := ih.1 _ (List.mem_of_getElem? ht)
    refine ⟨all_set ih.1 ?_, ih.2⟩
    cases m with
    | duSend => exact ⟨hb _ List.mem_cons_self, fun e he => hb e (List.mem_cons_of_mem _ he)⟩
    | _ => trivial
  | spawnReader ht | spawnHandler ht => exact ⟨all_append (all_set ih.1 trivial) (all_one trivial), ih.2⟩
  | call ht hh hc => exact ⟨all_set ih.1 (by cases hc <;> trivial), ih.2⟩
  | pushSend ht hk => exact ⟨all_set ih.1 (by cases hk <;> trivial), ih.2⟩
  | lock ht => exact ⟨all_set ih.1 nofun, ih.2⟩
  | tickAt ht => exact ⟨all_set ih.1 (tickAt_dmx _ _ _ _), ih.2⟩
  | pushDmx ht =>
    have hb := ih.1 _ (List.mem_of_getElem? ht)
    exact ⟨all_set ih.1 hb.2, all_append ih.2 (all_one hb.1)⟩
  | write | reject | lose | drop | gc | ignore | reply | unlock | sendDMX | arrive | accept
  | popPoll | popSend | popRecv | popReply | pushPoll | pushOwn | pushRecv | pushReply =>
    exact ⟨all_set ih.1 trivial, ih.2⟩
  | startPanic | startFail | start =>
    simp only [Sys.reset, Sys.panic, Sys.makeChannels, Sys.resetTables]
    split <;> exact ih
  | listen => exact ⟨all_append ih.1 (all_goroutines P trivial trivial trivial trivial trivial), ih.2⟩
  | spawnCaller => exact ⟨all_append ih.1 (all_one trivial), ih.2⟩
  | panic | close | listenFail | stop | disconnect | disconnectC | ended | register | deregister
  | noRegister => exact ih

theorem byteAt_of_take {b : Bytes} {l : Bytes} {n i : Nat} (h : b.take n = l) (hi : i < n) :
    byteAt b i = byteAt l i := by
  subst h
  simp [byteAt, hi]

theorem dmx_not_reply {e : Emission} (h : IsDMX e) (a : UDPAddr) : isReply ⟨a, e.data⟩ = false := by
  have h9 := byteAt_of_take h.2.1 (show 9 < 12 by decide)
  simp only [isReply, h9]
  simp [byteAt]

theorem poll_not_reply (a : UDPAddr) : isReply ⟨a, pollBytes⟩ = false := by
  have : (byteAt pollBytes 8 == 0x00 && byteAt pollBytes 9 == 0x21) = false := by decide
  exact this

theorem image_is_reply (a : UDPAddr) (p : ArtPollReply) : isReply ⟨a, pollReplyImage p⟩ = true := by
  have h : ∃ l, pollReplyImage p = magic ++ [0x00, 0x21] ++ l := by
    unfold pollReplyImage
    simp only [List.append_assoc]
    exact ⟨_, rfl⟩
  obtain ⟨l, h⟩ := h
  simp only [isReply, h]
  rfl

theorem me_is_reply {P : Params} {me : Bytes} (h : P.me = .ok me) (a : UDPAddr) :
    isReply ⟨a, me⟩ = true := by
  have : pollReplyImage (announced P.config) = me := Except.ok.inj ((me_eq P).symm.trans h)
  rw [← this]
  exact image_is_reply _ _

/-- Goroutines between a call of the built-in call-back and the reply put into sendCh. -/
def wPollT : Thread → Nat
  | .hPollTop _ | .hPoll _ _ | .prGot _ | .prSend _ _ => 1
  | _ => 0

def wPollC (c : Chans) : Nat := c.poll.length + c.enq.countP isReply

/-- Polls handled and polls made by pollLoop are the replies put into sendCh and those still due. -/
theorem poll_conservation {P : Params} {s : Sys} (h : Reach P s) :
    total wPollC s.chans + total wPollT s.threads = s.calls.countP isPollCall + s.own := by
  refine Reach.induct (P := P) (I := fun s =>
    total wPollC s.chans + total wPollT s.threads = s.calls.countP isPollCall + s.own) ?_ ?_ h
  · rfl
  intro s s' hr ih _ hst
  cases hst with
  | move ht m =>
    simp only [Sys.goto, total_sub _ ht]
    have h1 := total_ge wPollT ht
    have hw := fun t t' (m : Move P s t t') => show wPollT t = wPollT t' by cases m <;> rfl
    rw [hw _ _ m] at *
    omega
  | spawnReader ht | spawnHandler ht | arrive ht | lose ht | gc ht | ignore ht | reply ht | lock ht
  | unlock ht | tickAt ht | sendDMX ht | reject ht | drop ht | accept ht | write ht =>
    have h1 := total_ge wPollT ht
    simp only [Sys.goto, total_sub _ ht, total_append]
    simp [wPollT] at *
    omega
  | call ht hh hc =>
    have h1 := total_ge wPollT ht
    simp only [Sys.goto, total_sub _ ht, List.countP_append]
    cases hc with
    | poll => simp [wPollT, isPollCall] at *; omega
    | reply => simp [wPollT, isPollCall] at *; omega
    | other hn hx =>
      rename_i p h _
      have hf : isPollCall (h, p) = false := by
        cases h <;> cases p <;> first | rfl | exact (hn _ rfl rfl).elim
      simp [wPollT, hf] at *
      omega
  | pushSend ht hk hg hl =>
    have h1 := total_ge wPollT ht
    have h2 := total_ge wPollC hg
    simp only [Sys.goto, Sys.setCh, total_sub _ ht, total_sub _ hg]
    cases hk with
    | @pr g me =>
      have hm := me_is_reply (threads_ok hr _ (List.mem_of_getElem? ht)).1 P.broadcast
      simp [wPollT, wPollC, List.countP_append, hm] at *
      omega
    | pl =>
      have hm := poll_not_reply P.ctrlBroadcast
      simp [wPollT, wPollC, List.countP_append, hm] at *
      omega
  | @pushDmx _ _ e _ _ _ _ ht hg hq =>
    have hb := (emitted_dmx hr).1 _ (List.mem_of_getElem? ht)
    have hm := dmx_not_reply hb.1 e.address
    have h1 := total_ge wPollT ht
    have h2 := total_ge wPollC hg
    simp only [Sys.goto, Sys.setCh, total_sub _ ht, total_sub _ hg]
    simp [wPollT, wPollC, List.countP_append, hm] at *
    omega
  | popPoll ht hg hq | popSend ht hg hq | popRecv ht hg hq | popReply ht hg hq
  | pushRecv ht hg hq | pushPoll ht hg hq | pushOwn ht hg hq | pushReply ht hg hq =>
    have h1 := total_ge wPollT ht
    have h2 := total_ge wPollC hg
    simp only [Sys.goto, Sys.setCh, total_sub _ ht, total_sub _ hg]
    simp [wPollT, wPollC, hq] at *
    omega
  | close hc h hg hd =>
    have h2 := total_ge wPollC hg
    simp only [Sys.setCh, total_sub _ hg]
    simp [wPollC] at *
    omega
  | startPanic | startFail =>
    simp only [Sys.reset, Sys.panic, Sys.resetTables]
    split <;> exact ih
  | start =>
    simp only [Sys.reset, Sys.makeChannels, Sys.resetTables]
    split <;> simpa [wPollC, Chans.make] using ih
  | listen =>
    have := goroutines_weightless P wPollT rfl rfl rfl rfl rfl
    simp only [total_append]
    omega
  | spawnCaller => simpa [wPollT] using ih
  | panic | listenFail | stop | disconnect | disconnectC | ended | register | deregister | noRegister =>
    exact ih

end Verif.Conc
