import Verif.Lemmas.ConcInv
/-
Invariants of the receiving side: the read buffer, the datagrams read, the payloads that do not decode.
-/
namespace Verif.Conc
open Packet Code Artnet

theorem all_set {Q : α → Prop} {l : List α} {i : Nat} {b : α} (h : ∀ a ∈ l, Q a) (hb : Q b) :
    ∀ a ∈ l.set i b, Q a := by
  intro a ha
  rcases List.mem_or_eq_of_mem_set ha with ha | rfl
  · exact h a ha
  · exact hb

theorem all_append {Q : α → Prop} {l m : List α} (h : ∀ a ∈ l, Q a) (hm : ∀ a ∈ m, Q a) :
    ∀ a ∈ l ++ m, Q a := by
  intro a ha
  rcases List.mem_append.mp ha with ha | ha
  · exact h a ha
  · exact hm a ha

theorem all_one {Q : α → Prop} {b : α} (h : Q b) : ∀ a ∈ [b], Q a := by
  intro a ha; rw [List.mem_singleton.mp ha]; exact h

theorem all_goroutines {Q : Thread → Prop} (P : Params) (h1 : Q .prInit) (h2 : Q .rlInit) (h3 : Q .slTop)
    (h4 : Q .plSendTop) (h5 : Q .duInit) : ∀ t ∈ P.goroutines, Q t := by
  intro t ht
  simp only [Params.goroutines] at ht
  split at ht <;> simp at ht
  · rcases ht with rfl | rfl | rfl | rfl | rfl <;> assumption
  · rcases ht with rfl | rfl | rfl <;> assumption

/-- The read buffer of the reader has its size. -/
def BufOK : Thread → Prop
  | .rdTop b | .rdWait _ b | .rdCheck b _ | .rdGot b _ | .rdPush _ b _ => b.length = bufSize
  | _ => True

theorem buffers {P : Params} {s : Sys} (h : Reach P s) : ∀ t ∈ s.threads, BufOK t := by
  refine Reach.induct (P := P) (I := fun s => ∀ t ∈ s.threads, BufOK t) ?_ ?_ h
  · intro t ht; cases ht
  intro s s' _ ih _ hst
  cases hst with
  | move ht m =>
    have hb := ih _ (List.mem_of_getElem? ht)
    refine all_set ih ?_
    cases m <;> first | trivial | exact hb
  | spawnReader ht => exact all_append (all_set ih trivial) (all_one (List.length_replicate ..))
  | spawnHandler ht => exact all_append (all_set ih trivial) (all_one trivial)
  | arrive ht =>
    have hb := ih _ (List.mem_of_getElem? ht)
    exact all_set ih ((copyInto_length _ _).trans hb)
  | accept ht =>
    have hb := ih _ (List.mem_of_getElem? ht)
    exact all_set ih hb
  | pushRecv ht =>
    have hb := ih _ (List.mem_of_getElem? ht)
    exact all_set ih hb
  | pushSend ht hk => exact all_set ih (by cases hk <;> trivial)
  | call ht hh hc => exact all_set ih (by cases hc <;> trivial)
  | write | reject | lose | drop | gc | ignore | reply | lock | unlock | tickAt | sendDMX
  | popPoll | popSend | popRecv | popReply | pushDmx | pushPoll | pushOwn | pushReply =>
    exact all_set ih trivial
  | startPanic | startFail | start =>
    simp only [Sys.reset, Sys.panic, Sys.makeChannels, Sys.resetTables]
    split <;> exact ih
  | listen => exact all_append ih (all_goroutines P trivial trivial trivial trivial trivial)
  | spawnCaller => exact all_append ih (all_one trivial)
  | panic | close | listenFail | stop | disconnect | disconnectC | ended | register | deregister
  | noRegister => exact ih

/-- Reading a datagram into the buffer and copying it out gives its first 4096 bytes. -/
theorem readInto_copy (b d : Bytes) (hb : b.length = bufSize) :
    copyInto (List.replicate (readInto b d).2 0) (readInto b d).1 = d.take 4096 := by
  have hb : b.length = 4096 := hb
  simp only [readInto, copyInto, List.length_replicate, hb]
  have h1 : (List.replicate (min 4096 d.length) (0 : UInt8)).drop
      (d.take 4096 ++ b.drop d.length).length = [] := by
    apply List.drop_eq_nil_of_le
    simp only [List.length_replicate, List.length_append, List.length_take]
    omega
  rw [h1, List.append_nil, List.take_append_of_le_length (by rw [List.length_take]; exact Nat.le_refl _),
    List.take_take]
  have h2 : min (min 4096 d.length) 4096 = min 4096 d.length := by omega
  rw [h2]
  rcases Nat.le_total 4096 d.length with h | h
  · rw [Nat.min_eq_left h]
  · rw [Nat.min_eq_right h, List.take_of_length_le (Nat.le_refl _), List.take_of_length_le h]

def wCheck (P : Params) (x : Payload) (t : Thread) : Nat := (t.checking.filter (fromOther P)).count x

theorem arrived_conservation {P : Params} {s : Sys} (h : Reach P s) (x : Payload) :
    ((s.arrived.filter (fromOther P)).map trunc).count x =
      s.accepted.count x + total (wCheck P x) s.threads + (s.lost.filter (fromOther P)).count x := by
  refine Reach.induct (P := P) (I := fun s => ((s.arrived.filter (fromOther P)).map trunc).count x =
      s.accepted.count x + total (wCheck P x) s.threads + (s.lost.filter (fromOther P)).count x) ?_ ?_ h
  · rfl
  intro s s' hr ih _ hst
  cases hst with
  | move ht m =>
    simp only [Sys.goto, total_sub _ ht]
    have h1 := total_ge (wCheck P x) ht
    have hw := fun t t' (m : Move P s t t') => show wCheck P x t = wCheck P x t' by
      cases m with
      | rdSelf h hi =>
        simp [wCheck, Thread.checking, List.filter, fromOther, hi]
      | _ => rfl
    rw [hw _ _ m] at *
    omega
  | @arrive i k b src d ht =>
    have h1 := total_ge (wCheck P x) ht
    have hb : b.length = bufSize := buffers hr _ (List.mem_of_getElem? ht)
    simp only [Sys.goto, total_sub _ ht, List.filter_append, List.map_append, List.count_append]
    have hw : wCheck P x (.rdCheck (readInto b d).1 (some ((readInto b d).2, src))) =
        (([Payload.mk src d].filter (fromOther P)).map trunc).count x := by
      simp only [wCheck, Thread.checking, readInto_copy b d hb, List.filter, fromOther]
      split <;> rfl
    have h0 : wCheck P x (.rdWait k b) = 0 := rfl
    rw [hw]
    omega
  | @lose i b res ht =>
    have h1 := total_ge (wCheck P x) ht
    simp only [Sys.goto, total_sub _ ht, List.filter_append, List.count_append]
    have hw : wCheck P x (.rdCheck b res) = ((payloadOf b res).toList.filter (fromOther P)).count x := by
      cases res <;> rfl
    have h0 : wCheck P x .done = 0 := rfl
    omega
  | @accept i b n src ht hs hi =>
    have h1 := total_ge (wCheck P x) ht
    simp only [Sys.goto, total_sub _ ht, List.count_append]
    have hw : wCheck P x (.rdCheck b (some (n, src))) =
        [Payload.mk src (copyInto (List.replicate n 0) b)].count x := by
      simp [wCheck, Thread.checking, List.filter, fromOther, hi]
    have h0 : ∀ p, wCheck P x (.rdGot b p) = 0 := fun _ => rfl
    rw [h0]
    omega
  | spawnReader ht | spawnHandler ht | write ht | gc ht | ignore ht | reply ht | lock ht
  | unlock ht | tickAt ht | sendDMX ht | reject ht | drop ht 
  | popPoll ht | popSend ht | popRecv ht | popReply ht | pushDmx ht
  | pushRecv ht | pushPoll ht | pushOwn ht | pushReply ht =>
    have h1 := total_ge (wCheck P x) ht
    simp only [Sys.goto, Sys.setCh, total_sub _ ht, total_append]
    simp [wCheck, Thread.checking] at *
    omega
  | call ht hh hc =>
    have h1 := total_ge (wCheck P x) ht
    simp only [Sys.goto, total_sub _ ht]
    have hw : ∀ h p t', Calls P h p t' → wCheck P x t' = 0 := by intro h p t' hc; cases hc <;> rfl
    rw [hw _ _ _ hc]
    simp [wCheck, Thread.checking] at *
    omega
  | pushSend ht hk =>
    have h1 := total_ge (wCheck P x) ht
    simp only [Sys.goto, Sys.setCh, total_sub _ ht]
    have hw : ∀ t t' g p, Sends P t t' g p → wCheck P x t = wCheck P x t' := by
      intro t t' g p hc; cases hc <;> rfl
    rw [hw _ _ _ _ hk] at *
    omega
  | startPanic | startFail | start =>
    simp only [Sys.reset, Sys.panic, Sys.makeChannels, Sys.resetTables]
    split <;> exact ih
  | listen =>
    have := goroutines_weightless P (wCheck P x) rfl rfl rfl rfl rfl
    simp only [total_append]
    omega
  | spawnCaller => simpa [wCheck, Thread.checking] using ih
  | panic | close | listenFail | stop | disconnect | disconnectC | ended | register | deregister
  | noRegister => exact ih

/-- A payload that does not decode. -/
def bad (p : Payload) : Bool := (decode p).isNone

def wBadT (x : Payload) (t : Thread) : Nat := (t.carried.filter bad).count x
def wBadC (x : Payload) (c : Chans) : Nat := (c.recv.filter bad).count x

theorem rejected_conservation {P : Params} {s : Sys} (h : Reach P s) (x : Payload) :
    (s.accepted.filter bad).count x =
      total (wBadT x) s.threads + total (wBadC x) s.chans + s.rejected.count x := by
  refine Reach.induct (P := P) (I := fun s => (s.accepted.filter bad).count x =
      total (wBadT x) s.threads + total (wBadC x) s.chans + s.rejected.count x) ?_ ?_ h
  · rfl
  intro s s' _ ih _ hst
  cases hst with
  | move ht m =>
    simp only [Sys.goto, total_sub _ ht]
    have h1 := total_ge (wBadT x) ht
    have hw := fun t t' (m : Move P s t t') => show wBadT x t = wBadT x t' by cases m <;> rfl
    rw [hw _ _ m] at *
    omega
  | spawnReader ht | arrive ht | lose ht | write ht | gc ht | ignore ht | reply ht | lock ht
  | unlock ht | tickAt ht | sendDMX ht | drop ht =>
    have h1 := total_ge (wBadT x) ht
    simp only [Sys.goto, total_sub _ ht, total_append]
    simp [wBadT, Thread.carried] at *
    omega
  | @spawnHandler i p q ht hu =>
    have h1 := total_ge (wBadT x) ht
    simp only [Sys.goto, total_sub _ ht, total_append]
    have hb : bad p = false := by simp [bad, decode, hu]
    simp [wBadT, Thread.carried, List.filter, hb] at *
    omega
  | @reject i p r ht hu hn =>
    have hd : decode p = none := by
      simp only [decode, hu]
      split
      · rename_i h; cases h; exact absurd rfl (hn _)
      · rfl
    have hb : bad p = true := by simp [bad, hd]
    have h1 := total_ge (wBadT x) ht
    simp only [Sys.goto, total_sub _ ht, List.count_append]
    simp [wBadT, Thread.carried, List.filter, hb] at *
    omega
  | accept ht =>
    have h1 := total_ge (wBadT x) ht
    simp only [Sys.goto, total_sub _ ht, List.filter_append, List.count_append]
    simp [wBadT, Thread.carried] at *
    omega
  | call ht hh hc =>
    have h1 := total_ge (wBadT x) ht
    simp only [Sys.goto, total_sub _ ht]
    have hw : ∀ h p t', Calls P h p t' → wBadT x t' = 0 := by intro h p t' hc; cases hc <;> rfl
    rw [hw _ _ _ hc]
    simp [wBadT, Thread.carried] at *
    omega
  | pushSend ht hk hg hl =>
    have h1 := total_ge (wBadT x) ht
    have h2 := total_ge (wBadC x) hg
    simp only [Sys.goto, Sys.setCh, total_sub _ ht, total_sub _ hg]
    have hw : ∀ t t' g p, Sends P t t' g p → wBadT x t = wBadT x t' := by
      intro t t' g p hc; cases hc <;> rfl
    rw [hw _ _ _ _ hk] at *
    simp [wBadC] at *
    omega
  | @popRecv i g ch p q ht hg hq =>
    have h1 := total_ge (wBadT x) ht
    have h2 := total_ge (wBadC x) hg
    have hq : ch.recv = [p] ++ q := hq
    simp only [Sys.goto, Sys.setCh, total_sub _ ht, total_sub _ hg]
    simp only [wBadT, wBadC, hq, Thread.carried, List.filter_append, List.count_append,
      List.filter_nil, List.count_nil] at *
    omega
  | popPoll ht hg hq | popSend ht hg hq | popReply ht hg hq | pushDmx ht hg hq
  | pushRecv ht hg hq | pushPoll ht hg hq | pushOwn ht hg hq | pushReply ht hg hq =>
    have h1 := total_ge (wBadT x) ht
    have h2 := total_ge (wBadC x) hg
    simp only [Sys.goto, Sys.setCh, total_sub _ ht, total_sub _ hg]
    simp [wBadT, wBadC, Thread.carried, List.count_append] at *
    omega
  | close hc h hg hd =>
    have h2 := total_ge (wBadC x) hg
    simp only [Sys.setCh, total_sub _ hg]
    simp [wBadC] at *
    omega
  | startPanic | startFail =>
    simp only [Sys.reset, Sys.panic, Sys.resetTables]
    split <;> exact ih
  | start =>
    simp only [Sys.reset, Sys.makeChannels, Sys.resetTables]
    split <;> simpa [wBadC, Chans.make] using ih
  | listen =>
    have := goroutines_weightless P (wBadT x) rfl rfl rfl rfl rfl
    simp only [total_append]
    omega
  | spawnCaller => simpa [wBadT, Thread.carried] using ih
  | panic | listenFail | stop | disconnect | disconnectC | ended | register | deregister | noRegister =>
    exact ih

def wQueT (x : Payload) (t : Thread) : Nat := t.carried.count x
def wQueC (x : Payload) (c : Chans) : Nat := c.recv.count x

/-- What is on its way to the parser was accepted. -/
theorem queued_accepted {P : Params} {s : Sys} (h : Reach P s) (x : Payload) :
    total (wQueT x) s.threads + total (wQueC x) s.chans ≤ s.accepted.count x := by
  refine Reach.induct (P := P) (I := fun s =>
    total (wQueT x) s.threads + total (wQueC x) s.chans ≤ s.accepted.count x) ?_ ?_ h
  · exact Nat.le_refl _
  intro s s' _ ih _ hst
  cases hst with
  | move ht m =>
    simp only [Sys.goto, total_sub _ ht]
    have h1 := total_ge (wQueT x) ht
    have hw := fun t t' (m : Move P s t t') => show wQueT x t = wQueT x t' by cases m <;> rfl
    rw [hw _ _ m] at *
    omega
  | spawnReader ht | arrive ht | lose ht | write ht | gc ht | ignore ht | reply ht | lock ht
  | unlock ht | tickAt ht | sendDMX ht | drop ht | spawnHandler ht hu | reject ht hu hn =>
    have h1 := total_ge (wQueT x) ht
    simp only [Sys.goto, total_sub _ ht, total_append]
    simp [wQueT, Thread.carried] at *
    omega
  | accept ht =>
    have h1 := total_ge (wQueT x) ht
    simp only [Sys.goto, total_sub _ ht, List.count_append]
    simp [wQueT, Thread.carried] at *
    omega
  | call ht hh hc =>
    have h1 := total_ge (wQueT x) ht
    simp only [Sys.goto, total_sub _ ht]
    have hw : ∀ h p t', Calls P h p t' → wQueT x t' = 0 := by intro h p t' hc; cases hc <;> rfl
    rw [hw _ _ _ hc]
    simp [wQueT, Thread.carried] at *
    omega
  | pushSend ht hk hg hl =>
    have h1 := total_ge (wQueT x) ht
    have h2 := total_ge (wQueC x) hg
    simp only [Sys.goto, Sys.setCh, total_sub _ ht, total_sub _ hg]
    have hw : ∀ t t' g p, Sends P t t' g p → wQueT x t = wQueT x t' := by
      intro t t' g p hc; cases hc <;> rfl
    rw [hw _ _ _ _ hk] at *
    simp [wQueC] at *
    omega
  | @popRecv i g ch p q ht hg hq =>
    have h1 := total_ge (wQueT x) ht
    have h2 := total_ge (wQueC x) hg
    have hq : ch.recv = [p] ++ q := hq
    simp only [Sys.goto, Sys.setCh, total_sub _ ht, total_sub _ hg]
    simp only [wQueT, wQueC, hq, Thread.carried, List.count_append, List.count_nil] at *
    omega
  | popPoll ht hg hq | popSend ht hg hq | popReply ht hg hq | pushDmx ht hg hq
  | pushRecv ht hg hq | pushPoll ht hg hq | pushOwn ht hg hq | pushReply ht hg hq =>
    have h1 := total_ge (wQueT x) ht
    have h2 := total_ge (wQueC x) hg
    simp only [Sys.goto, Sys.setCh, total_sub _ ht, total_sub _ hg]
    simp [wQueT, wQueC, Thread.carried, List.count_append] at *
    omega
  | close hc h hg hd =>
    have h2 := total_ge (wQueC x) hg
    simp only [Sys.setCh, total_sub _ hg]
    simp [wQueC] at *
    omega
  | startPanic | startFail =>
    simp only [Sys.reset, Sys.panic, Sys.resetTables]
    split <;> exact ih
  | start =>
    simp only [Sys.reset, Sys.makeChannels, Sys.resetTables]
    split <;> simpa [wQueC, Chans.make] using ih
  | listen =>
    have := goroutines_weightless P (wQueT x) rfl rfl rfl rfl rfl
    simp only [total_append]
    omega
  | spawnCaller => simpa [wQueT, Thread.carried] using ih
  | panic | listenFail | stop | disconnect | disconnectC | ended | register | deregister | noRegister =>
    exact ih

/-- Nothing accepted comes from the node's own address. -/
theorem accepted_other {P : Params} {s : Sys} (h : Reach P s) : ∀ p ∈ s.accepted, fromOther P p = true := by
  refine Reach.induct (P := P) (I := fun s => ∀ p ∈ s.accepted, fromOther P p = true) ?_ ?_ h
  · intro t ht; cases ht
  intro s s' _ ih _ hst
  cases hst with
  | accept ht hs hi => exact all_append ih (all_one (by simp [fromOther, hi]))
  | startPanic | startFail | start =>
    simp only [Sys.reset, Sys.panic, Sys.makeChannels, Sys.resetTables]
    split <;> exact ih
  | _ => exact ih

end Verif.Conc
