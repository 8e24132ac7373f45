import Verif.Spec.Settle
import Verif.Lemmas.Arrival
import Verif.Lemmas.ConcWire
/-
How the steps of the goroutines change what is left to send after Stop.
-/
namespace Verif.Conc
open Packet Code Artnet Spec

theorem tickAt_other (c : Ctrl) (a : Address) (r : Ref) (now : Int) (x : Ref) {b : Address} (hb : b ≠ a) :
    bufferAt ((c.tickAt a r now).1.heap x) b = bufferAt (c.heap x) b ∧ (c.tickAt a r now).1.maxFPS = c.maxFPS := by
  have hw : bufferAt (withBuffer (c.heap r) a) b = bufferAt (c.heap r) b := by
    unfold withBuffer
    cases (c.heap r).dmxBuffer.get a with
    | none => simp only [bufferAt, GoMap.get_set]; rw [if_neg hb]
    | some _ => rfl
  have hs : bufferAt (sent (withBuffer (c.heap r) a) a now) b = bufferAt (c.heap r) b := by
    rw [← hw]
    simp only [sent, bufferAt, GoMap.get_set]
    rw [if_neg hb]
  rw [tickAt_eq]
  split
  · refine ⟨?_, rfl⟩
    by_cases hx : x = r
    · subst hx; simp only [Ctrl.store, ite_true]; exact hs
    · simp only [Ctrl.store, hx, ite_false]
  · refine ⟨?_, rfl⟩
    by_cases hx : x = r
    · subst hx; simp only [Ctrl.store, ite_true]; exact hw
    · simp only [Ctrl.store, hx, ite_false]

theorem dueOf_cons (c : Ctrl) (a : Address) (r : Ref) (rest : List (Address × Ref)) (now : Int)
    (hn : (((a, r) :: rest).map Prod.fst).Nodup) :
    dueOf c ((a, r) :: rest) now = (c.tickAt a r now).2.length + dueOf (c.tickAt a r now).1 rest now := by
  have h1 : dueOf (c.tickAt a r now).1 rest now = dueOf c rest now := by
    unfold dueOf
    congr 1
    apply List.filter_congr
    intro x hx
    have hne : x.1 ≠ a := by
      rintro rfl
      exact (List.nodup_cons.mp hn).1 (List.mem_map.mpr ⟨x, hx, rfl⟩)
    obtain ⟨e1, e2⟩ := tickAt_other c a r now x.2 hne
    rw [e1, e2]
  have h2 : (c.tickAt a r now).2.length = if Due (bufferAt (c.heap r) a) now c.maxFPS then 1 else 0 := by
    rw [tickAt_eq]
    split <;> rfl
  rw [h1, h2]
  unfold dueOf
  rw [List.filter_cons]
  by_cases hd : Due (bufferAt (c.heap r) a) now c.maxFPS
  · simp only [hd, decide_true, ite_true, List.length_cons]; omega
  · simp only [hd, decide_false, ite_false, Bool.false_eq_true]; omega

/-- The universes that the tick still has to look at are different. -/
def distinctLeft (t : Thread) : Prop := ∀ pend rest now, holder t = some (pend, rest, now) → (rest.map Prod.fst).Nodup

theorem distinct_of {t : Thread} (h : holder t = none) : distinctLeft t := by
  intro _ _ _ hx
  rw [h] at hx
  cases hx

theorem left_distinct {P : Params} {s : Sys} (h : Reach P s) : ∀ t ∈ s.threads, distinctLeft t := by
  refine Reach.induct (P := P) (I := fun s => ∀ t ∈ s.threads, distinctLeft t) ?_ ?_ h
  · intro t ht; cases ht
  intro s s' hr ih _ hst
  have at' : ∀ {i : Nat} {t}, s.threads[i]? = some t → distinctLeft t := fun ht => ih _ (List.mem_of_getElem? ht)
  have upd : ∀ {i : Nat} {t'}, distinctLeft t' → ∀ u ∈ s.threads.set i t', distinctLeft u := by
    intro i t' h' u hu
    rcases List.mem_or_eq_of_mem_set hu with hu | rfl
    · exact ih u hu
    · exact h'
  have app : ∀ {l l' : List Thread}, (∀ u ∈ l, distinctLeft u) → (∀ u ∈ l', holder u = none) → ∀ u ∈ l ++ l', distinctLeft u := by
    intro l l' h1 h2 u hu
    rcases List.mem_append.mp hu with hu | hu
    · exact h1 u hu
    · exact distinct_of (h2 u hu)
  have one : ∀ {t : Thread}, holder t = none → ∀ u ∈ [t], holder u = none := by
    intro t h u hu; cases List.mem_singleton.mp hu; exact h
  cases hst with
  | panic _ => exact ih
  | move ht m =>
    have h0 := at' ht
    refine upd ?_
    cases m <;> first | exact distinct_of rfl | skip
    intro pend rest now hh
    cases hh
    exact h0 _ _ _ rfl
  | pushSend ht k hg hl => refine upd ?_; cases k <;> exact distinct_of rfl
  | pushDmx ht hg hl =>
    have h0 := at' ht
    refine upd ?_
    intro pend rest now hh
    cases hh
    exact h0 _ _ _ rfl
  | lock ht hl hp =>
    refine upd ?_
    intro pend rest now hh
    cases hh
    have hc : ((Ctrl.init P.maxFPS).run s.hist).1 = s.ctrl := ((lin_inv hr).free hl).state
    have hw := ((inv_init P.maxFPS).run _ ((lin_inv hr).free hl).can).wfOut
    rw [hc] at hw
    have hn := hp.symm.nodup hw
    rename_i l _
    clear hp h
    induction l with
    | nil => exact List.nodup_nil
    | cons a l ihl =>
      obtain ⟨hn1, hn2⟩ := List.nodup_cons.mp hn
      cases hg : s.ctrl.output.get a with
      | none => rw [List.filterMap_cons_none (by simp [hg])]; exact ihl hn2
      | some r =>
        rw [List.filterMap_cons_some (b := (a, r)) (by simp [hg]), List.map_cons]
        refine List.nodup_cons.mpr ⟨?_, ihl hn2⟩
        intro hm
        obtain ⟨x, hx, hxa⟩ := List.mem_map.mp hm
        obtain ⟨b, hb, hbx⟩ := List.mem_filterMap.mp hx
        cases hgb : s.ctrl.output.get b with
        | none => rw [hgb] at hbx; cases hbx
        | some r' =>
          rw [hgb] at hbx
          cases hbx
          cases hxa
          exact hn1 hb
  | tickAt ht =>
    have h0 := at' ht
    refine upd ?_
    intro pend rest now hh
    cases hh
    exact (List.nodup_cons.mp (h0 _ _ _ rfl)).2
  | spawnReader ht => exact app (upd (distinct_of rfl)) (one rfl)
  | spawnHandler ht hu => exact app (upd (distinct_of rfl)) (one rfl)
  | call ht _ hc => refine upd ?_; cases hc <;> exact distinct_of rfl
  | startPanic _ _ => simp only [Sys.reset, Sys.panic, Sys.resetTables]; split <;> exact ih
  | startFail _ _ => simp only [Sys.reset, Sys.resetTables]; split <;> exact ih
  | start _ _ => simp only [Sys.reset, Sys.makeChannels, Sys.resetTables]; split <;> exact ih
  | listen hc =>
    refine app ih ?_
    intro u hu
    simp only [Params.goroutines] at hu
    split at hu <;> simp at hu
    · rcases hu with rfl | rfl | rfl | rfl | rfl <;> rfl
    · rcases hu with rfl | rfl | rfl <;> rfl
  | spawnCaller _ => exact app ih (one rfl)
  | listenFail | stop | close | disconnectC | disconnect | ended | register | deregister | noRegister => exact ih
  | _ => exact upd (distinct_of rfl)

theorem total_change {f f' : Thread → Nat} {l : List Thread} {i : Nat} {t : Thread} (h : l[i]? = some t) (t' : Thread)
    (hf : ∀ j u, j ≠ i → l[j]? = some u → f' u = f u) : total f' (l.set i t') + f t = total f l + f' t' := by
  induction l generalizing i with
  | nil => simp at h
  | cons a l ih =>
    cases i with
    | zero =>
      simp only [List.getElem?_cons_zero, Option.some.injEq] at h
      subst h
      have : total f' l = total f l := by
        have h1 : ∀ u ∈ l, f' u = f u := by
          intro u hu
          obtain ⟨j, hj⟩ := List.mem_iff_getElem?.mp hu
          exact hf (j + 1) u (by omega) (by simpa using hj)
        simp only [total]
        rw [List.map_congr_left h1]
      simp only [List.set_cons_zero, total_cons]
      omega
    | succ i =>
      have h1 := ih (i := i) (by simpa using h) fun j u hj hu => hf (j + 1) u (by omega) (by simpa using hu)
      have h2 := hf 0 a (by omega) rfl
      simp only [List.set_cons_succ, total_cons]
      omega

theorem mustSend_ctrl {t : Thread} (h : holder t = none) (c c' : Ctrl) : mustSend c t = mustSend c' t := by
  cases t <;> first | rfl | cases h

/-- What a goroutine counts for, apart from sendCh. -/
def weights (P : Params) (cb : GoMap OpCode Handler) (t : Thread) : Nat × Nat × Nat × Nat × Nat × Nat × Nat :=
  (mustRecv t, mustPoll cb t, mustReply P cb t, mayTake t, isRecvLoop t, isReplyLoop t, isPollLoop t)

/-- By how much what is left to do changes. -/
structure Eff (P : Params) (s s' : Sys) (R Q A S T rl pr pl : Int) : Prop where
  recv : (s'.recvLoad : Int) = s.recvLoad + R
  poll : (s'.pollLoad : Int) = s.pollLoad + Q
  reply : (s'.replyLoad P : Int) = s.replyLoad P + A
  send : (s'.sendLoad : Int) = s.sendLoad + S
  take : (s'.sum mayTake : Int) = s.sum mayTake + T
  rl : (s'.sum isRecvLoop : Int) = s.sum isRecvLoop + rl
  pr : (s'.sum isReplyLoop : Int) = s.sum isReplyLoop + pr
  pl : (s'.sum isPollLoop : Int) = s.sum isPollLoop + pl

theorem eff_of {P : Params} {s s' : Sys} {i : Nat} {t t' : Thread} {ex : List Thread} {R Q A S T rl pr pl : Int}
    (ht : s.threads[i]? = some t) (hth : s'.threads = s.threads.set i t' ++ ex) (hcb : s'.callbacks = s.callbacks)
    (hS : total (mustSend s'.ctrl) s'.threads + mustSend s.ctrl t =
      total (mustSend s.ctrl) s.threads + mustSend s'.ctrl t' + total (mustSend s'.ctrl) ex)
    (hrel : s'.relief = s.relief)
    (h1 : ((s'.newest Chans.recv).length + mustRecv t' + total mustRecv ex : Int) =
      (s.newest Chans.recv).length + mustRecv t + R)
    (h2 : ((s'.newest Chans.poll).length + mustPoll s.callbacks t' + total (mustPoll s.callbacks) ex : Int) =
      (s.newest Chans.poll).length + mustPoll s.callbacks t + Q)
    (h3 : ((s'.newest Chans.pollReply).length + mustReply P s.callbacks t' + total (mustReply P s.callbacks) ex : Int) =
      (s.newest Chans.pollReply).length + mustReply P s.callbacks t + A)
    (h4 : ((s'.newest Chans.send).length + mustSend s'.ctrl t' + total (mustSend s'.ctrl) ex : Int) =
      (s.newest Chans.send).length + mustSend s.ctrl t + S)
    (h5 : (mayTake t' + total mayTake ex : Int) = mayTake t + T)
    (h6 : (isRecvLoop t' + total isRecvLoop ex : Int) = isRecvLoop t + rl)
    (h7 : (isReplyLoop t' + total isReplyLoop ex : Int) = isReplyLoop t + pr)
    (h8 : (isPollLoop t' + total isPollLoop ex : Int) = isPollLoop t + pl) : Eff P s s' R Q A S T rl pr pl := by
  have key : ∀ f, s'.sum f + f t = s.sum f + f t' + total f ex := by
    intro f
    have h1 := total_set f ht t'
    show total f s'.threads + f t = total f s.threads + f t' + total f ex
    rw [hth, total_append]
    omega
  constructor
  · have := key mustRecv; simp only [Sys.recvLoad]; omega
  · have := key (mustPoll s.callbacks); simp only [Sys.pollLoad, hcb, hrel]; omega
  · have := key (mustReply P s.callbacks); simp only [Sys.replyLoad, hcb, hrel]; omega
  · have hS' : s'.sum (mustSend s'.ctrl) + mustSend s.ctrl t =
      s.sum (mustSend s.ctrl) + mustSend s'.ctrl t' + total (mustSend s'.ctrl) ex := hS
    simp only [Sys.sendLoad]; omega
  · have := key mayTake; omega
  · have := key isRecvLoop; omega
  · have := key isReplyLoop; omega
  · have := key isPollLoop; omega

theorem relief_same {s s' : Sys} (h1 : s'.newest Chans.recv = s.newest Chans.recv) (h2 : s'.sum mustRecv = s.sum mustRecv) :
    s'.relief = s.relief := by
  have h3 : s'.recvLoad = s.recvLoad := by simp only [Sys.recvLoad, h1, h2]
  unfold Sys.relief
  rw [h3, h1]

theorem sum_set {s s' : Sys} {i : Nat} {t t' : Thread} {ex : List Thread} (ht : s.threads[i]? = some t)
    (hth : s'.threads = s.threads.set i t' ++ ex) (f : Thread → Nat) : s'.sum f + f t = s.sum f + f t' + total f ex := by
  have h1 := total_set f ht t'
  show total f s'.threads + f t = total f s.threads + f t' + total f ex
  rw [hth, total_append]
  omega

theorem send_same {s s' : Sys} {i : Nat} {t t' : Thread} {ex : List Thread} (ht : s.threads[i]? = some t)
    (hth : s'.threads = s.threads.set i t' ++ ex) (hc : s'.ctrl = s.ctrl) :
    total (mustSend s'.ctrl) s'.threads + mustSend s.ctrl t =
      total (mustSend s.ctrl) s.threads + mustSend s'.ctrl t' + total (mustSend s'.ctrl) ex := by
  rw [hc]
  exact sum_set ht hth _

/-- A step of a goroutine that changes neither the queues nor what it counts for. -/
theorem eff_zero {P : Params} {s s' : Sys} {i : Nat} {t t' : Thread} (ht : s.threads[i]? = some t)
    (hth : s'.threads = s.threads.set i t') (hch : s'.chans = s.chans) (hcb : s'.callbacks = s.callbacks)
    (hS : total (mustSend s'.ctrl) s'.threads = total (mustSend s.ctrl) s.threads)
    (hm : mustSend s'.ctrl t' = mustSend s.ctrl t)
    (hw : weights P s.callbacks t' = weights P s.callbacks t) : Eff P s s' 0 0 0 0 0 0 0 0 := by
  simp only [weights, Prod.mk.injEq] at hw
  obtain ⟨w1, w2, w3, w4, w5, w6, w7⟩ := hw
  have hn : ∀ {α} (f : Chans → List α), s'.newest f = s.newest f := by intro α f; simp only [Sys.newest, hch]
  have hth' : s'.threads = s.threads.set i t' ++ [] := by rw [hth, List.append_nil]
  refine eff_of ht hth' hcb ?_ (relief_same (hn _) ?_) ?_ ?_ ?_ ?_ ?_ ?_ ?_ ?_
  · rw [hS, hm, total_nil, Nat.add_zero]
  · have := sum_set ht hth' mustRecv
    rw [w1, total_nil] at this
    omega
  all_goals simp only [hn, total_nil]; omega

/-- A step of a goroutine that puts something into, or takes something from, another queue than recvCh. -/
theorem eff_chan {P : Params} {s s' : Sys} {i g : Nat} {t t' : Thread} {ch ch' : Chans} {Q A S T rl pr pl : Int}
    (ht : s.threads[i]? = some t)
    (hth : s'.threads = s.threads.set i t') (hg : s.chans[g]? = some ch) (hl : g + 1 = s.chans.length)
    (hch : s'.chans = s.chans.set g ch') (hcb : s'.callbacks = s.callbacks) (hc : s'.ctrl = s.ctrl)
    (hr : ch'.recv = ch.recv) (h1 : mustRecv t' = mustRecv t)
    (h2 : (ch'.poll.length + mustPoll s.callbacks t' : Int) = ch.poll.length + mustPoll s.callbacks t + Q)
    (h3 : (ch'.pollReply.length + mustReply P s.callbacks t' : Int) = ch.pollReply.length + mustReply P s.callbacks t + A)
    (h4 : (ch'.send.length + mustSend s.ctrl t' : Int) = ch.send.length + mustSend s.ctrl t + S)
    (h5 : (mayTake t' : Int) = mayTake t + T) (h6 : (isRecvLoop t' : Int) = isRecvLoop t + rl)
    (h7 : (isReplyLoop t' : Int) = isReplyLoop t + pr) (h8 : (isPollLoop t' : Int) = isPollLoop t + pl) :
    Eff P s s' 0 Q A S T rl pr pl := by
  have hth' : s'.threads = s.threads.set i t' ++ [] := by rw [hth, List.append_nil]
  have hn : ∀ {α} (f : Chans → List α), s'.newest f = f ch' ∧ s.newest f = f ch := by
    intro α f
    obtain ⟨e1, e2⟩ := newest_top (f := f) (ch' := ch') hg hl
    refine ⟨?_, e1⟩
    rw [← e2]
    simp only [Sys.newest, hch, Sys.setCh]
  refine eff_of ht hth' hcb (send_same ht hth' hc) (relief_same ?_ ?_) ?_ ?_ ?_ ?_ ?_ ?_ ?_ ?_
  · rw [(hn _).1, (hn _).2, hr]
  · have := sum_set ht hth' mustRecv
    rw [h1, total_nil] at this
    omega
  · simp only [(hn _).1, (hn _).2, hr, total_nil]; omega
  · simp only [(hn _).1, (hn _).2, total_nil]; omega
  · simp only [(hn _).1, (hn _).2, total_nil]; omega
  · simp only [(hn _).1, (hn _).2, total_nil, hc]; omega
  all_goals simp only [total_nil]; omega

/-- The goroutine is in a select, or waits to. -/
def Thread.selecting : Thread → Bool
  | .prWait _ _ | .slWait _ | .rlWait _ | .plWait _ _ | .duWait _ => true
  | _ => false

/-- The effect of the step of a goroutine. -/
inductive Effect (P : Params) (s s' : Sys) : Thread → Prop
  | same {t} (h : Eff P s s' 0 0 0 0 0 0 0 0) : Effect P s s' t
  | prDown {g me} (h : Eff P s s' 0 0 0 0 0 0 (-1) 0) : Effect P s s' (.prWait g me)
  | slDown {g} (h : Eff P s s' 0 0 0 0 (-1) 0 0 0) : Effect P s s' (.slWait g)
  | rlDown {g} (h : Eff P s s' 0 0 0 0 0 (-1) 0 0) : Effect P s s' (.rlWait g)
  | plDown {g k} (h : Eff P s s' 0 0 0 0 0 0 0 (-1)) : Effect P s s' (.plWait g k)
  | popPoll {g me} (h : Eff P s s' 0 (-1) 0 1 0 0 0 0) : Effect P s s' (.prWait g me)
  | popSend {g} (h : Eff P s s' 0 0 0 (-1) (-1) 0 0 0) : Effect P s s' (.slWait g)
  | popReply {g k} (h : Eff P s s' 0 0 (-1) 0 0 0 0 0) : Effect P s s' (.plWait g k)
  | popRecv {g Q A} (h : Eff P s s' (-1) Q A 0 0 0 0 0) (hQ : 0 ≤ Q) (hA : 0 ≤ A) (he : 11 ≤ s.recvLoad → Q = 0 ∧ A = 0) :
      Effect P s s' (.rlWait g)
  | tick {g k} (h : Eff P s s' 0 1 0 1 0 0 0 0) : Effect P s s' (.plWait g k)
  | lock {n} (h : Eff P s s' 0 0 0 n 0 0 0 0) (hn : 0 ≤ n) : Effect P s s' .duLock

theorem wRd_recv (t : Thread) : mustRecv t ≤ wRd t := by
  cases t <;> first | exact Nat.zero_le _ | exact Nat.le_refl _

theorem one_reader {P : Params} {s : Sys} (h : TidyReach P s) : s.sum mustRecv ≤ 1 :=
  Nat.le_trans (total_le_total fun t _ => wRd_recv t) (receivers h).1.2

theorem decode_none {p : Payload} {r} (hu : unmarshal p.data = .ok r) (hn : ∀ q, r ≠ (some q, none)) : decode p = none := by
  simp only [decode, hu]
  split
  · rename_i q h; cases h; exact absurd rfl (hn q)
  · rfl

theorem effect {P : Params} {s s' : Sys} {i : Nat} {t : Thread} {c : Choice} (hr : TidyReach P s) (hp : s.phase = .stopped)
    (ht : s.threads[i]? = some t) (h : s.step P i t c = some s') (hn : s'.crashed = none) : Effect P s s' t := by
  have hsh : s.shutdown = true := (life hr.reach).shut.mpr (by rw [hp]; nofun)
  have hm := List.mem_of_getElem? ht
  have htop := latest hr t hm
  have hli := lin_inv hr.reach
  have zero : ∀ {s' : Sys} {t'}, s'.threads = s.threads.set i t' → s'.chans = s.chans → s'.callbacks = s.callbacks →
      s'.ctrl = s.ctrl → mustSend s.ctrl t' = mustSend s.ctrl t → weights P s.callbacks t' = weights P s.callbacks t →
      Effect P s s' t := by
    intro s' t' h1 h2 h3 h4 h5 h6
    refine .same (eff_zero ht h1 h2 h3 ?_ (by rw [h4]; exact h5) h6)
    rw [h1, h4]
    have := total_set (mustSend s.ctrl) ht t'
    omega
  have free : ∀ {s' : Sys} {t'}, s.lock = false → s'.threads = s.threads.set i t' → s'.chans = s.chans →
      s'.callbacks = s.callbacks → holder t' = none → mustSend s.ctrl t' = mustSend s.ctrl t →
      weights P s.callbacks t' = weights P s.callbacks t → Effect P s s' t := by
    intro s' t' hl h1 h2 h3 h4 h5 h6
    have e1 := mustSend_ctrl h4 s'.ctrl s.ctrl
    refine .same (eff_zero ht h1 h2 h3 ?_ (by rw [e1, h5]) h6)
    have := total_change (f := mustSend s.ctrl) (f' := mustSend s'.ctrl) ht t' fun j u _ hu =>
      mustSend_ctrl (hli.nobody hl hu) _ _
    rw [h1]
    omega
  have loop : ∀ {s' : Sys} {t'}, s'.threads = s.threads.set i t' → s'.chans = s.chans → s'.callbacks = s.callbacks →
      s'.ctrl = s.ctrl → mustSend s.ctrl t' = mustSend s.ctrl t → mustRecv t' = mustRecv t →
      mustPoll s.callbacks t' = mustPoll s.callbacks t → mustReply P s.callbacks t' = mustReply P s.callbacks t →
      Eff P s s' 0 0 0 0 ((mayTake t' : Int) - mayTake t) ((isRecvLoop t' : Int) - isRecvLoop t)
        ((isReplyLoop t' : Int) - isReplyLoop t) ((isPollLoop t' : Int) - isPollLoop t) := by
    intro s' t' h1 h2 h3 h4 h5 h6 h7 h8
    have hn : ∀ {α} (f : Chans → List α), s'.newest f = s.newest f := by intro α f; simp only [Sys.newest, h2]
    have hth' : s'.threads = s.threads.set i t' ++ [] := by rw [h1, List.append_nil]
    refine eff_of ht hth' h3 (send_same ht hth' h4) (relief_same (hn _) ?_) ?_ ?_ ?_ ?_ ?_ ?_ ?_ ?_
    · have := sum_set ht hth' mustRecv
      rw [h6, total_nil] at this
      omega
    all_goals simp only [hn, total_nil, h4]; omega
  cases step_Run h with
  | panic => simp [Sys.panic] at hn
  | move m hq =>
    cases m with
    | prDown => exact .prDown (loop (t' := .done) rfl rfl rfl rfl rfl rfl rfl rfl)
    | slDown => exact .slDown (loop (t' := .done) rfl rfl rfl rfl rfl rfl rfl rfl)
    | rlDown => exact .rlDown (loop (t' := .done) rfl rfl rfl rfl rfl rfl rfl rfl)
    | plDown => exact .plDown (loop (t' := .done) rfl rfl rfl rfl rfl rfl rfl rfl)
    | slGo hx => exact absurd (hsh.symm.trans hx) nofun
    | rdSelf hx => exact absurd (hsh.symm.trans hx) nofun
    | @plTick g k =>
      refine .tick (eff_of (t' := .plSendTop) (ex := []) ht (by rw [List.append_nil]; rfl) rfl
        (send_same ht (by rw [List.append_nil]; rfl) rfl) (relief_same rfl ?_) rfl ?_ rfl ?_ rfl rfl rfl rfl)
      · exact sum_set (t' := .plSendTop) (ex := []) ht (by rw [List.append_nil]; rfl) mustRecv
      · simp only [mustPoll, total_nil]; show ((s.newest Chans.poll).length + _ + _ : Int) = _; omega
      · simp only [mustSend, total_nil]; show ((s.newest Chans.send).length + _ + _ : Int) = _; omega
    | duSend => exact zero rfl rfl rfl rfl (by simp only [mustSend, List.length_cons]; omega) rfl
    | _ => exact zero rfl rfl rfl rfl rfl rfl
  | popPoll hg hq =>
    refine .popPoll (eff_chan ht rfl hg htop rfl rfl rfl rfl rfl ?_ rfl ?_ rfl rfl rfl rfl)
    · simp only [hq, mustPoll, List.length_cons]; omega
    · simp only [mustSend]; omega
  | popSend hg hq =>
    refine .popSend (eff_chan ht rfl hg htop rfl rfl rfl rfl rfl rfl rfl ?_ rfl rfl rfl rfl)
    simp only [hq, mustSend, List.length_cons]; omega
  | popReply hg hq =>
    refine .popReply (eff_chan ht rfl hg htop.1 rfl rfl rfl rfl rfl rfl ?_ rfl rfl rfl rfl rfl)
    simp only [hq, mustReply, List.length_cons]; omega
  | pushSend k hg hl =>
    cases k with
    | pr =>
      refine .same (eff_chan ht rfl hg htop rfl rfl rfl rfl rfl rfl rfl ?_ rfl rfl rfl rfl)
      simp only [mustSend, List.length_append, List.length_singleton]; omega
    | pl =>
      refine .same (eff_chan ht rfl hg htop rfl rfl rfl rfl rfl rfl rfl ?_ rfl rfl rfl rfl)
      simp only [mustSend, List.length_append, List.length_singleton]; omega
  | pushDmx hg hl =>
    refine .same (eff_chan ht rfl hg htop rfl rfl rfl rfl rfl rfl rfl ?_ rfl rfl rfl rfl)
    simp only [mustSend, List.length_append, List.length_singleton]; omega
  | pushPoll hg hl =>
    refine .same (eff_chan ht rfl hg htop rfl rfl rfl rfl rfl ?_ rfl rfl rfl rfl rfl rfl)
    simp only [mustPoll, List.length_append, List.length_singleton]; omega
  | pushOwn hg hl =>
    refine .same (eff_chan ht rfl hg htop rfl rfl rfl rfl rfl ?_ rfl rfl rfl rfl rfl rfl)
    simp only [mustPoll, List.length_append, List.length_singleton]; omega
  | pushReply hg hl =>
    refine .same (eff_chan ht rfl hg htop rfl rfl rfl rfl rfl rfl ?_ rfl rfl rfl rfl rfl)
    simp only [mustReply, List.length_append, List.length_singleton]; omega
  | write hk ho => exact zero rfl rfl rfl rfl rfl rfl
  | reject hu hno =>
    refine zero rfl rfl rfl rfl rfl ?_
    simp only [weights, mustPoll, mustReply, decode_none hu hno]
    rfl
  | arrive ho => exact zero rfl rfl rfl rfl rfl rfl
  | lose h => exact zero rfl rfl rfl rfl rfl rfl
  | accept hx _ => exact absurd (hsh.symm.trans hx) nofun
  | drop hd =>
    refine zero rfl rfl rfl rfl rfl ?_
    rename_i p
    cases p <;> simp only [weights, mustPoll, mustReply, passesPoll, passesReply, hd] <;> simp <;> exact ⟨rfl, rfl, rfl, rfl, rfl⟩
  | call hh hcl =>
    refine zero rfl rfl rfl rfl ?_ ?_
    · cases hcl <;> rfl
    · cases hcl with
      | poll => simp only [weights, mustPoll, mustReply, passesPoll, passesReply, hh]; simp; exact ⟨rfl, rfl, rfl, rfl, rfl⟩
      | reply hP => simp only [weights, mustPoll, mustReply, passesPoll, passesReply, hh, hP]; simp; exact ⟨rfl, rfl, rfl, rfl, rfl⟩
      | other h1 h2 h3 =>
        rename_i p h
        cases p <;> simp only [weights, mustPoll, mustReply, passesPoll, passesReply, hh] <;> try rfl
        · rw [if_neg (by intro hx; cases hx; exact h1 _ rfl rfl)]; rfl
        · rw [if_neg (by rintro ⟨h4, hx⟩; cases hx; exact h2 _ rfl rfl h4)]; rfl
  | gc hl => exact free hl rfl rfl rfl rfl rfl rfl
  | ignore hi => exact zero rfl rfl rfl rfl rfl rfl
  | reply hi hl => exact free hl rfl rfl rfl rfl rfl rfl
  | sendDMX hl => exact free hl rfl rfl rfl rfl rfl rfl
  | @lock _ l now hl hp =>
    generalize hres : (l.filterMap fun a => (s.ctrl.output.get a).map fun r => (a, r)) = rest
    refine .lock (n := mustSend s.ctrl (.duTick [] rest now)) (eff_of (t' := .duTick [] rest now) (ex := []) ht
      (by rw [List.append_nil]; rfl) rfl
      (send_same ht (by rw [List.append_nil]; rfl) rfl) (relief_same rfl ?_) rfl rfl rfl ?_ rfl rfl rfl rfl) (by omega)
    · exact sum_set (t' := .duTick [] rest now) (ex := []) ht (by rw [List.append_nil]; rfl) mustRecv
    · show ((s.newest Chans.send).length + mustSend s.ctrl (.duTick [] rest now) + total _ [] : Int) =
        (s.newest Chans.send).length + mustSend s.ctrl .duLock + mustSend s.ctrl (.duTick [] rest now)
      simp only [total_nil, show mustSend s.ctrl .duLock = 0 from rfl]
      omega
  | unlock => exact zero rfl rfl rfl rfl rfl rfl
  | @tickAt _ a r rest now =>
    have hd := left_distinct hr.reach _ hm _ _ _ rfl
    have e := dueOf_cons s.ctrl a r rest now hd
    have hm : mustSend (s.ctrl.tickAt a r now).1 (.duTick (s.ctrl.tickAt a r now).2 rest now) =
        mustSend s.ctrl (.duTick [] ((a, r) :: rest) now) := by
      simp only [mustSend, e, List.length_nil, Nat.zero_add]
    refine .same (eff_zero ht rfl rfl rfl ?_ hm rfl)
    have := total_change (f := mustSend s.ctrl) (f' := mustSend (s.ctrl.tickAt a r now).1) ht
      (.duTick (s.ctrl.tickAt a r now).2 rest now) fun j u hj hu => by
        cases hh : holder u with
        | none => exact mustSend_ctrl hh _ _
        | some x => exact absurd (hli.only hu ht (by rw [hh]; rfl) rfl) hj
    show total (mustSend (s.ctrl.tickAt a r now).1) (s.threads.set i _) = _
    omega
  | spawnReader =>
    refine .same (eff_of (t' := .rlTop) (ex := [.rdTop (List.replicate bufSize 0)]) ht rfl rfl (send_same ht rfl rfl)
      (relief_same rfl ?_) rfl rfl rfl rfl rfl rfl rfl rfl)
    exact (sum_set (t' := .rlTop) (ex := [.rdTop (List.replicate bufSize 0)]) ht rfl mustRecv)
  | spawnHandler hu =>
    rename_i p q
    have e := decode_of hu
    refine .same (eff_of (t' := .rlTop) (ex := [.hStart q]) ht rfl rfl (send_same ht rfl rfl)
      (relief_same rfl ?_) rfl ?_ ?_ rfl rfl rfl rfl rfl)
    · exact (sum_set (t' := .rlTop) (ex := [.hStart q]) ht rfl mustRecv)
    · simp only [mustPoll, e, total_cons, total_nil]
      show ((s.newest Chans.poll).length + _ + _ : Int) = _
      omega
    · simp only [mustReply, e, total_cons, total_nil]
      show ((s.newest Chans.pollReply).length + _ + _ : Int) = _
      omega
  | @pushRecv _ g b p ch hg hl =>
    have hth : ((s.setCh g { ch with recv := ch.recv ++ [p] }).goto i (.rdTop b)).threads =
      s.threads.set i (.rdTop b) ++ [] := by rw [List.append_nil]; rfl
    have hnew : ∀ {α : Type} (f : Chans → List α), s.newest f = f ch ∧
        ((s.setCh g { ch with recv := ch.recv ++ [p] }).goto i (.rdTop b)).newest f = f { ch with recv := ch.recv ++ [p] } :=
      fun f => newest_top (f := f) hg htop
    have h1 := one_reader hr
    have h2 := sum_set (t' := .rdTop b) ht hth mustRecv
    simp only [mustRecv, total_nil] at h2
    simp only [capacity] at hl
    refine .same (eff_of (t' := .rdTop b) ht hth rfl (send_same ht hth rfl) ?_ ?_ ?_ ?_ ?_ rfl rfl rfl rfl)
    · unfold Sys.relief
      rw [if_pos, if_pos]
      · simp only [Sys.recvLoad, (hnew _).1]; omega
      · simp only [Sys.recvLoad, (hnew _).2, List.length_append, List.length_singleton]; omega
    · simp only [(hnew _).1, (hnew _).2, mustRecv, total_nil, List.length_append, List.length_singleton]; omega
    · simp only [(hnew _).1, (hnew _).2]; rfl
    · simp only [(hnew _).1, (hnew _).2]; rfl
    · simp only [(hnew _).1, (hnew _).2]; rfl
  | @popRecv _ g ch p q hg hq =>
    have hth : ((s.setCh g { ch with recv := q }).goto i (.rlParse p)).threads = s.threads.set i (.rlParse p) ++ [] := by
      rw [List.append_nil]; rfl
    have hnew : ∀ {α : Type} (f : Chans → List α), s.newest f = f ch ∧
        ((s.setCh g { ch with recv := q }).goto i (.rlParse p)).newest f = f { ch with recv := q } :=
      fun f => newest_top (f := f) hg htop
    have h1 := one_reader hr
    have hok := (chans_ok hr.reach ch (List.mem_of_getElem? hg)).recv
    rw [hq, List.length_cons] at hok
    have key := fun f => sum_set (t' := .rlParse p) ht hth f
    have k1 := key mustRecv
    have k2 := key (mustPoll s.callbacks)
    have k3 := key (mustReply P s.callbacks)
    have k4 := key (mustSend s.ctrl)
    have k5 := key mayTake
    have k6 := key isRecvLoop
    have k7 := key isReplyLoop
    have k8 := key isPollLoop
    simp only [mustRecv, mustPoll, mustReply, mustSend, mayTake, isRecvLoop, isReplyLoop, isPollLoop, total_nil] at k1 k2 k3 k4 k5 k6 k7 k8
    have hR : s.recvLoad = ((s.setCh g { ch with recv := q }).goto i (.rlParse p)).recvLoad + 1 := by
      simp only [Sys.recvLoad, (hnew _).1, (hnew _).2, hq, List.length_cons]
      omega
    have hR11 : s.recvLoad ≤ 11 := by
      simp only [Sys.recvLoad, (hnew _).1, hq, List.length_cons]
      omega
    have hrel' : ((s.setCh g { ch with recv := q }).goto i (.rlParse p)).relief = none := by
      unfold Sys.relief
      rw [if_pos (by omega)]
    have hrel : s.relief = if s.recvLoad ≤ 10 then none else decode p := by
      unfold Sys.relief
      rw [(hnew _).1, hq]
      rfl
    have z1 : passesPoll s.callbacks none = 0 := rfl
    have z2 : passesReply P s.callbacks none = 0 := rfl
    by_cases hR10 : s.recvLoad ≤ 10
    · rw [if_pos hR10] at hrel
      refine .popRecv (Q := passesPoll s.callbacks (decode p)) (A := passesReply P s.callbacks (decode p))
        ⟨by omega, ?_, ?_, ?_, by omega, by omega, by omega, by omega⟩ (by omega) (by omega) (by omega)
      · simp only [Sys.pollLoad, (hnew _).1, (hnew _).2, hrel, hrel']
        show ((_ + Sys.sum _ (mustPoll s.callbacks) + passesPoll s.callbacks none : Nat) : Int) = _
        omega
      · simp only [Sys.replyLoad, (hnew _).1, (hnew _).2, hrel, hrel']
        show ((_ + Sys.sum _ (mustReply P s.callbacks) + passesReply P s.callbacks none : Nat) : Int) = _
        omega
      · simp only [Sys.sendLoad, (hnew _).1, (hnew _).2]
        show ((_ + Sys.sum _ (mustSend s.ctrl) : Nat) : Int) = _
        omega
    · rw [if_neg hR10] at hrel
      refine .popRecv (Q := 0) (A := 0)
        ⟨by omega, ?_, ?_, ?_, by omega, by omega, by omega, by omega⟩ (by omega) (by omega) (by omega)
      · simp only [Sys.pollLoad, (hnew _).1, (hnew _).2, hrel, hrel']
        show ((_ + Sys.sum _ (mustPoll s.callbacks) + passesPoll s.callbacks none : Nat) : Int) = _
        omega
      · simp only [Sys.replyLoad, (hnew _).1, (hnew _).2, hrel, hrel']
        show ((_ + Sys.sum _ (mustReply P s.callbacks) + passesReply P s.callbacks none : Nat) : Int) = _
        omega
      · simp only [Sys.sendLoad, (hnew _).1, (hnew _).2]
        show ((_ + Sys.sum _ (mustSend s.ctrl) : Nat) : Int) = _
        omega

/-- What settles after a step did so before. -/
theorem Settles.back {P : Params} {s s' : Sys} {i : Nat} {t : Thread} (he : Effect P s s' t) (ht : s.threads[i]? = some t)
    (h : Settles P s') : Settles P s := by
  obtain ⟨h1, h2, h3, h4⟩ := h
  have w : ∀ f : Thread → Nat, f t ≤ s.sum f := fun f => total_ge f ht
  cases he with
  | same h => obtain ⟨e1, e2, e3, e4, e5, e6, e7, e8⟩ := h; constructor <;> omega
  | prDown h => obtain ⟨e1, e2, e3, e4, e5, e6, e7, e8⟩ := h; constructor <;> omega
  | slDown h => obtain ⟨e1, e2, e3, e4, e5, e6, e7, e8⟩ := h; constructor <;> omega
  | rlDown h => obtain ⟨e1, e2, e3, e4, e5, e6, e7, e8⟩ := h; constructor <;> omega
  | plDown h => obtain ⟨e1, e2, e3, e4, e5, e6, e7, e8⟩ := h; constructor <;> omega
  | @popPoll g me h =>
    have := w isReplyLoop
    have hw : isReplyLoop (.prWait g me) = 1 := rfl
    obtain ⟨e1, e2, e3, e4, e5, e6, e7, e8⟩ := h; constructor <;> omega
  | popSend h => obtain ⟨e1, e2, e3, e4, e5, e6, e7, e8⟩ := h; constructor <;> omega
  | tick h => obtain ⟨e1, e2, e3, e4, e5, e6, e7, e8⟩ := h; constructor <;> omega
  | lock h _ => obtain ⟨e1, e2, e3, e4, e5, e6, e7, e8⟩ := h; constructor <;> omega
  | @popReply g k h =>
    have := w isPollLoop
    have hw : isPollLoop (.plWait g k) = 1 := rfl
    obtain ⟨e1, e2, e3, e4, e5, e6, e7, e8⟩ := h; constructor <;> omega
  | @popRecv g Q A h hQ hA he =>
    have := w isRecvLoop
    have hw : isRecvLoop (.rlWait g) = 1 := rfl
    obtain ⟨e1, e2, e3, e4, e5, e6, e7, e8⟩ := h; constructor <;> omega

/-- A further call of SendDMXToAddress changes nothing. -/
theorem Settles.caller {P : Params} {s u : Sys} {d : Arr 512} {x : Address} (ht : u.threads = s.threads ++ [.caller d x])
    (hch : u.chans = s.chans) (hcb : u.callbacks = s.callbacks) (hc : u.ctrl = s.ctrl) (h : Settles P u) : Settles P s := by
  obtain ⟨e1, e2, e3, e4⟩ := h
  have hn : ∀ {α : Type} (f : Chans → List α), u.newest f = s.newest f := by intro α f; simp only [Sys.newest, hch]
  have z : ∀ f : Thread → Nat, f (.caller d x) = 0 → u.sum f = s.sum f := by
    intro f hf
    show total f u.threads = total f s.threads
    rw [ht, total_append, total_cons, total_nil, hf, Nat.add_zero]
  have hR : u.recvLoad = s.recvLoad := by simp only [Sys.recvLoad, hn, z mustRecv rfl]
  have hrel : u.relief = s.relief := relief_same (hn _) (z mustRecv rfl)
  have hQ : u.pollLoad = s.pollLoad := by simp only [Sys.pollLoad, hrel, hcb, hn, z (mustPoll s.callbacks) rfl]
  have hA : u.replyLoad P = s.replyLoad P := by simp only [Sys.replyLoad, hrel, hcb, hn, z (mustReply P s.callbacks) rfl]
  have hS : u.sendLoad = s.sendLoad := by simp only [Sys.sendLoad, hc, hn, z (mustSend s.ctrl) rfl]
  rw [hR, z _ rfl] at e1
  rw [hA, z _ rfl] at e2
  rw [hQ, z _ rfl] at e3
  rw [hS, hQ, z _ rfl] at e4
  exact ⟨e1, e2, e3, e4⟩

/-- The queues of the session hold ten items at most. -/
theorem newest_le {P : Params} {s : Sys} (h : Reach P s) : (s.newest Chans.send).length ≤ 10 ∧ (s.newest Chans.recv).length ≤ 10 ∧
    (s.newest Chans.poll).length ≤ 10 ∧ (s.newest Chans.pollReply).length ≤ 10 := by
  unfold Sys.newest
  cases hc : s.chans.getLast? with
  | none => exact ⟨Nat.zero_le _, Nat.zero_le _, Nat.zero_le _, Nat.zero_le _⟩
  | some ch =>
    obtain ⟨h1, h2, h3, h4, _⟩ := chans_ok h ch (List.mem_of_getLast? hc)
    exact ⟨h1, h2, h3, h4⟩

/-- The goroutine is in a select or has returned. -/
def Thread.parked (t : Thread) : Prop := t.selecting = true ∨ t = .done

theorem sum_zero {s : Sys} {f : Thread → Nat} (h : ∀ t ∈ s.threads, f t = 0) : s.sum f = 0 := by
  show total f s.threads = 0
  revert h
  generalize s.threads = l
  intro h
  induction l with
  | nil => rfl
  | cons a l ih =>
    rw [total_cons, h a (List.mem_cons_self ..), ih fun t ht => h t (List.mem_cons_of_mem _ ht)]

/-- When all goroutines are in a select or have returned nothing must be sent. -/
theorem rest_loads {P : Params} {s : Sys} (hr : Reach P s) (h : ∀ t ∈ s.threads, t.parked) :
    s.recvLoad ≤ 10 ∧ s.pollLoad ≤ 10 ∧ s.replyLoad P ≤ 10 ∧ s.sendLoad ≤ 10 := by
  obtain ⟨n1, n2, n3, n4⟩ := newest_le hr
  have z : ∀ {f : Thread → Nat}, (∀ t : Thread, t.parked → f t = 0) → s.sum f = 0 :=
    fun hf => sum_zero fun t ht => hf t (h t ht)
  have z1 : s.sum mustRecv = 0 := z (by rintro t (ht | rfl) <;> first | rfl | (cases t <;> first | rfl | cases ht))
  have z2 : s.sum (mustPoll s.callbacks) = 0 := z (by rintro t (ht | rfl) <;> first | rfl | (cases t <;> first | rfl | cases ht))
  have z3 : s.sum (mustReply P s.callbacks) = 0 := z (by rintro t (ht | rfl) <;> first | rfl | (cases t <;> first | rfl | cases ht))
  have z4 : s.sum (mustSend s.ctrl) = 0 := z (by rintro t (ht | rfl) <;> first | rfl | (cases t <;> first | rfl | cases ht))
  have r1 : s.recvLoad ≤ 10 := by simp only [Sys.recvLoad]; omega
  have rel : s.relief = none := by unfold Sys.relief; rw [if_pos r1]
  have p1 : passesPoll s.callbacks none = 0 := rfl
  have p2 : passesReply P s.callbacks none = 0 := rfl
  refine ⟨r1, ?_, ?_, ?_⟩
  · simp only [Sys.pollLoad, rel]; omega
  · simp only [Sys.replyLoad, rel]; omega
  · simp only [Sys.sendLoad]; omega

theorem Settles.done {P : Params} {s : Sys} (hr : Reach P s) (h : ∀ t ∈ s.threads, t = .done) : Settles P s := by
  obtain ⟨h1, h2, h3, h4⟩ := rest_loads hr fun t ht => .inr (h t ht)
  exact ⟨.inl h1, .inl h3, .inl h2, by omega⟩

theorem some_thread {s : Sys} {f : Thread → Nat} (h : 1 ≤ s.sum f) : ∃ (i : Nat) (t : Thread), s.threads[i]? = some t ∧ 1 ≤ f t := by
  refine Classical.byContradiction fun hn => ?_
  have := sum_zero (s := s) (f := f) fun t ht => by
    obtain ⟨i, hi⟩ := List.mem_iff_getElem?.mp ht
    refine Classical.byContradiction fun hx => hn ⟨i, t, hi, by omega⟩
  omega

/-- The queue that a goroutine waits for. -/
def Thread.queue (s : Sys) : Thread → Nat
  | .prSend _ _ | .plSend _ | .duSend _ _ _ _ _ => (s.newest Chans.send).length
  | .hPoll _ _ | .plPoll _ => (s.newest Chans.poll).length
  | .hReply _ _ => (s.newest Chans.pollReply).length
  | .rdPush _ _ _ => (s.newest Chans.recv).length
  | _ => 0

/-- Which goroutines can go on. -/
theorem goes_on {P : Params} {s : Sys} (hr : TidyReach P s) (hp : s.phase = .stopped) (hlk : Thread.duLock ∉ s.threads)
    {i : Nat} {t : Thread} (ht : s.threads[i]? = some t) (hs : t.selecting = false) (hd : t ≠ .done)
    (hroom : t.queue s < 10) (hlock : t.locking = true → s.lock = false) :
    ∃ c s', c ≠ .tick ∧ c ≠ .gcTick ∧ s.step P i t c = some s' := by
  have hm := List.mem_of_getElem? ht
  have htop := latest hr t hm
  have href := refs hr.reach t hm
  have hget : ∀ g, g + 1 = s.chans.length → ∃ ch, s.chans[g]? = some ch := fun g hg =>
    ⟨_, List.getElem?_eq_getElem (by omega)⟩
  have go := can_go hr.reach hp (closedFor_tidy hr hp t hm) ht hd
  have nolock : ∀ {x : Prop}, t.locking = true ∧ (s.lock = true ∨ t = .duLock) → x := by
    rintro x ⟨h1, h2 | rfl⟩
    · rw [hlock h1] at h2; cases h2
    · exact absurd hm hlk
  cases hsend : t.sending with
  | none =>
    rcases go with h | ⟨g, ch, h, _⟩ | h
    · exact h
    · rw [hsend] at h; cases h
    · exact nolock h
  | some g =>
    clear go nolock
    have hgl : g + 1 = s.chans.length := by cases t <;> first | (cases hsend; done) | (cases hsend; exact htop)
    obtain ⟨ch, hg⟩ := hget g hgl
    have hnew : ∀ {α : Type} (f : Chans → List α), s.newest f = f ch := fun f => (newest_top (f := f) (ch' := ch) hg hgl).1
    cases t <;> first | (cases hsend; done) | cases hsend
    all_goals simp only [Thread.queue, hnew] at hroom
    · exact ⟨.next, _, nofun, nofun, by simp only [Sys.step, Sys.comm, hg, Chans.pushSend, if_pos (show _ < capacity from hroom)]; rfl⟩
    · exact ⟨.next, _, nofun, nofun, by simp only [Sys.step, Sys.comm, hg, Chans.pushRecv, if_pos (show _ < capacity from hroom)]; rfl⟩
    · exact ⟨.next, _, nofun, nofun, by simp only [Sys.step, Sys.comm, hg, Chans.pushPoll, if_pos (show _ < capacity from hroom)]; rfl⟩
    · exact ⟨.next, _, nofun, nofun, by simp only [Sys.step, Sys.comm, hg, Chans.pushReply, if_pos (show _ < capacity from hroom)]; rfl⟩
    · exact ⟨.next, _, nofun, nofun, by simp only [Sys.step, Sys.comm, hg, Chans.pushSend, if_pos (show _ < capacity from hroom)]; rfl⟩
    · exact ⟨.next, _, nofun, nofun, by simp only [Sys.step, Sys.comm, hg, Chans.pushPoll, if_pos (show _ < capacity from hroom)]; rfl⟩
    · exact ⟨.next, _, nofun, nofun, by simp only [Sys.step, Sys.comm, hg, Chans.pushSend, if_pos (show _ < capacity from hroom)]; rfl⟩

/-- As long as not all goroutines have returned, some step leaves room for everything that must be sent. -/
theorem Settles.onward {P : Params} {s : Sys} (hr : TidyReach P s) (hp : s.phase = .stopped) (hcr : s.crashed = none)
    (hlk : Thread.duLock ∉ s.threads)
    (hcrash : ∀ (i : Nat) (t : Thread) (c : Choice) (s' : Sys), s.threads[i]? = some t → c ≠ .tick → c ≠ .gcTick →
      s.step P i t c = some s' → s'.crashed = none)
    (h : Settles P s) (hn : ∃ t ∈ s.threads, t ≠ .done) :
    ∃ (i : Nat) (t : Thread) (c : Choice) (s' : Sys), s.threads[i]? = some t ∧ c ≠ .tick ∧ c ≠ .gcTick ∧
      s.step P i t c = some s' ∧ Settles P s' := by
  obtain ⟨h1, h2, h3, h4⟩ := h
  have eff : ∀ {i : Nat} {t : Thread} {c : Choice} {s' : Sys}, s.threads[i]? = some t → c ≠ .tick → c ≠ .gcTick →
      s.step P i t c = some s' → Effect P s s' t := fun ht c1 c2 hs => effect hr hp ht hs (hcrash _ _ _ _ ht c1 c2 hs)
  refine Classical.byContradiction fun hno => ?_
  -- no goroutine outside a select can go on
  have stuck : ∀ {i : Nat} {t : Thread}, s.threads[i]? = some t → t.selecting = false → t ≠ .done → t.queue s < 10 →
      (t.locking = true → s.lock = false) → False := by
    intro i t ht hs hd hq hl
    obtain ⟨c, s', c1, c2, hst⟩ := goes_on hr hp hlk ht hs hd hq hl
    refine hno ⟨i, t, c, s', ht, c1, c2, hst, ?_⟩
    cases eff ht c1 c2 hst with
    | lock => exact absurd (List.mem_of_getElem? ht) hlk
    | same he => obtain ⟨e1, e2, e3, e4, e5, e6, e7, e8⟩ := he; constructor <;> omega
    | _ => cases hs
  have w : ∀ {i : Nat} {t : Thread} (f : Thread → Nat), s.threads[i]? = some t → f t ≤ s.sum f := fun f ht => total_ge f ht
  have queue : ∀ {g : Nat}, g + 1 = s.chans.length → ∃ ch, s.chans[g]? = some ch ∧
      ∀ {α : Type} (f : Chans → List α), s.newest f = f ch := by
    intro g hg
    have hx : s.chans[g]? = some s.chans[g] := List.getElem?_eq_getElem (by omega)
    exact ⟨_, hx, fun f => (newest_top (f := f) (ch' := s.chans[g]) hx hg).1⟩
  have n0 : 0 < 10 := by omega
  -- nobody waits for room in sendCh
  have noSend : (s.newest Chans.send).length < 10 ∨ s.sum (mustSend s.ctrl) = 0 := by
    refine Classical.byContradiction fun hx => ?_
    have hS : 11 ≤ s.sendLoad := by simp only [Sys.sendLoad]; omega
    obtain ⟨i, t, ht, hw⟩ := some_thread (s := s) (f := mayTake) (by omega)
    cases t <;> first | (simp [mayTake] at hw; done) | skip
    · exact stuck ht rfl nofun n0 nofun
    · rename_i g
      have hl : g + 1 = s.chans.length := latest hr _ (List.mem_of_getElem? ht)
      obtain ⟨ch, hg, hnew⟩ := queue hl
      rw [hnew] at hx
      cases hq : ch.send with
      | nil => rw [hq] at hx; simp at hx
      | cons p q =>
        have hst : s.step P i (.slWait g) .next =
            some ((s.setCh g { ch with send := q, taken := ch.taken ++ [p] }).goto i (.slCheck p)) := by
          simp only [Sys.step, hg, hq]; rfl
        refine hno ⟨i, _, .next, _, ht, nofun, nofun, hst, ?_⟩
        have he : Eff P s ((s.setCh g { ch with send := q, taken := ch.taken ++ [p] }).goto i (.slCheck p)) 0 0 0 (-1) (-1) 0 0 0 :=
          eff_chan ht rfl hg hl rfl rfl rfl rfl rfl rfl rfl (by simp only [hq, mustSend, List.length_cons]; omega) rfl rfl rfl rfl
        obtain ⟨e1, e2, e3, e4, e5, e6, e7, e8⟩ := he
        constructor <;> omega
    · exact stuck ht rfl nofun n0 nofun
  have roomS : ∀ {i : Nat} {t : Thread}, s.threads[i]? = some t → 1 ≤ mustSend s.ctrl t → (s.newest Chans.send).length < 10 := by
    intro i t ht hw
    have := w (mustSend s.ctrl) ht
    omega
  -- so the lock is free
  have hlock : s.lock = false := by
    cases hl : s.lock with
    | false => rfl
    | true =>
      obtain ⟨i, t, ht, hh⟩ := holder_exists hr.reach hl
      cases t <;> first | (cases hh; done) | skip
      · exact (stuck ht rfl nofun n0 nofun).elim
      · exact (stuck ht rfl nofun (roomS ht (by simp [mustSend])) nofun).elim
  -- nobody waits for room in pollCh
  have noPoll : (s.newest Chans.poll).length < 10 ∨ s.sum (mustPoll s.callbacks) = 0 := by
    refine Classical.byContradiction fun hx => ?_
    have hQ : 11 ≤ s.pollLoad := by simp only [Sys.pollLoad]; omega
    obtain ⟨i, t, ht, hw⟩ := some_thread (s := s) (f := isReplyLoop) (by omega)
    cases t <;> first | (simp [isReplyLoop] at hw; done) | skip
    · exact stuck ht rfl nofun n0 nofun
    · exact stuck ht rfl nofun n0 nofun
    · rename_i g me
      have hl : g + 1 = s.chans.length := latest hr _ (List.mem_of_getElem? ht)
      obtain ⟨ch, hg, hnew⟩ := queue hl
      rw [hnew] at hx
      cases hq : ch.poll with
      | nil => rw [hq] at hx; simp at hx
      | cons p q =>
        have hst : s.step P i (.prWait g me) .next = some ((s.setCh g { ch with poll := q }).goto i (.prGot me)) := by
          simp only [Sys.step, hg, hq]; rfl
        refine hno ⟨i, _, .next, _, ht, nofun, nofun, hst, ?_⟩
        have he : Eff P s ((s.setCh g { ch with poll := q }).goto i (.prGot me)) 0 (-1) 0 1 0 0 0 0 :=
          eff_chan ht rfl hg hl rfl rfl rfl rfl rfl (by simp only [hq, mustPoll, List.length_cons]; omega) rfl
            (by simp only [mustSend]; omega) rfl rfl rfl rfl
        obtain ⟨e1, e2, e3, e4, e5, e6, e7, e8⟩ := he
        constructor <;> omega
    · exact stuck ht rfl nofun n0 nofun
    · exact stuck ht rfl nofun (roomS ht (Nat.le_refl 1)) nofun
  have roomP : ∀ {i : Nat} {t : Thread}, s.threads[i]? = some t → 1 ≤ mustPoll s.callbacks t → (s.newest Chans.poll).length < 10 := by
    intro i t ht hw
    have := w (mustPoll s.callbacks) ht
    omega
  -- nobody waits for room in pollReplyCh
  have noReply : (s.newest Chans.pollReply).length < 10 ∨ s.sum (mustReply P s.callbacks) = 0 := by
    refine Classical.byContradiction fun hx => ?_
    have hA : 11 ≤ s.replyLoad P := by simp only [Sys.replyLoad]; omega
    obtain ⟨i, t, ht, hw⟩ := some_thread (s := s) (f := isPollLoop) (by omega)
    cases t <;> first | (simp [isPollLoop] at hw; done) | skip
    · exact stuck ht rfl nofun n0 nofun
    · exact stuck ht rfl nofun (roomS ht (Nat.le_refl 1)) nofun
    · exact stuck ht rfl nofun n0 nofun
    · exact stuck ht rfl nofun (roomP ht (Nat.le_refl 1)) nofun
    · exact stuck ht rfl nofun n0 nofun
    · rename_i g k
      have hl : g + 1 = s.chans.length := (latest hr _ (List.mem_of_getElem? ht)).1
      obtain ⟨ch, hg, hnew⟩ := queue hl
      rw [hnew] at hx
      cases hq : ch.pollReply with
      | nil => rw [hq] at hx; simp at hx
      | cons p q =>
        have hst : s.step P i (.plWait g k) .next = some ((s.setCh g { ch with pollReply := q }).goto i (.plGot p)) := by
          simp only [Sys.step, hg, hq]; rfl
        refine hno ⟨i, _, .next, _, ht, nofun, nofun, hst, ?_⟩
        have he : Eff P s ((s.setCh g { ch with pollReply := q }).goto i (.plGot p)) 0 0 (-1) 0 0 0 0 0 :=
          eff_chan ht rfl hg hl rfl rfl rfl rfl rfl rfl (by simp only [hq, mustReply, List.length_cons]; omega) rfl rfl rfl rfl rfl
        obtain ⟨e1, e2, e3, e4, e5, e6, e7, e8⟩ := he
        constructor <;> omega
    · exact stuck ht rfl nofun n0 fun _ => hlock
    · exact stuck ht rfl nofun n0 fun _ => hlock
  -- nobody waits for room in recvCh
  have noRecv : (s.newest Chans.recv).length < 10 ∨ s.sum mustRecv = 0 := by
    refine Classical.byContradiction fun hx => ?_
    have hR : 11 ≤ s.recvLoad := by simp only [Sys.recvLoad]; omega
    obtain ⟨i, t, ht, hw⟩ := some_thread (s := s) (f := isRecvLoop) (by omega)
    cases t <;> first | (simp [isRecvLoop] at hw; done) | skip
    · exact stuck ht rfl nofun n0 nofun
    · exact stuck ht rfl nofun n0 nofun
    · rename_i g
      have hl : g + 1 = s.chans.length := latest hr _ (List.mem_of_getElem? ht)
      obtain ⟨ch, hg, hnew⟩ := queue hl
      rw [hnew] at hx
      cases hq : ch.recv with
      | nil => rw [hq] at hx; simp at hx
      | cons p q =>
        have hst : s.step P i (.rlWait g) .next = some ((s.setCh g { ch with recv := q }).goto i (.rlParse p)) := by
          simp only [Sys.step, hg, hq]; rfl
        refine hno ⟨i, _, .next, _, ht, nofun, nofun, hst, ?_⟩
        have hm := sum_set (s' := (s.setCh g { ch with recv := q }).goto i (.rlParse p)) (t' := .rlParse p) (ex := []) ht
          (by rw [List.append_nil]; rfl) mustRecv
        simp only [mustRecv, total_nil] at hm
        have hRR : ((s.setCh g { ch with recv := q }).goto i (.rlParse p)).recvLoad + 1 = s.recvLoad := by
          have hn' : ((s.setCh g { ch with recv := q }).goto i (.rlParse p)).newest Chans.recv = q :=
            (newest_top (f := Chans.recv) (ch' := { ch with recv := q }) hg hl).2
          simp only [Sys.recvLoad, hnew, hn', hq, List.length_cons]
          omega
        cases eff (c := .next) ht nofun nofun hst with
        | same he => have := he.recv; omega
        | rlDown he => have := he.recv; omega
        | popRecv he _ _ hz =>
          obtain ⟨z1, z2⟩ := hz hR
          obtain ⟨e1, e2, e3, e4, e5, e6, e7, e8⟩ := he
          constructor <;> omega
    · exact stuck ht rfl nofun n0 nofun
  -- so all goroutines are in a select or have returned
  have hpark : ∀ t ∈ s.threads, t.parked := by
    intro t hm
    refine Classical.byContradiction fun hx => ?_
    obtain ⟨i, ht⟩ := List.mem_iff_getElem?.mp hm
    have hs : t.selecting = false := by
      cases hs : t.selecting with
      | false => rfl
      | true => exact absurd (.inl hs) hx
    refine stuck ht hs (fun hd => hx (.inr hd)) ?_ fun _ => hlock
    cases t <;> first | exact n0 | exact roomS ht (Nat.le_refl 1) | exact roomP ht (Nat.le_refl 1) | skip
    · have : 1 ≤ s.sum mustRecv := w mustRecv ht
      simp only [Thread.queue]; omega
    · have : 1 ≤ s.sum (mustReply P s.callbacks) := w (mustReply P s.callbacks) ht
      simp only [Thread.queue]; omega
    · exact roomS ht (by simp [mustSend])
  obtain ⟨t, hm, hd⟩ := hn
  obtain ⟨i, ht⟩ := List.mem_iff_getElem?.mp hm
  have hs : t.selecting = true := (hpark t hm).resolve_right hd
  have hcl := closedFor_tidy hr hp t hm
  have hst : s.step P i t .down = some (s.goto i .done) := by
    cases t <;> first | (cases hs; done) | skip
    · obtain ⟨ch, hg, hd⟩ := hcl; simp only [Sys.step, hg, hd]; rfl
    · obtain ⟨ch, hg, hd⟩ := hcl; simp only [Sys.step, hg, hd]; rfl
    · obtain ⟨ch, hg, hd⟩ := hcl; simp only [Sys.step, hg, hd]; rfl
    · simp only [Sys.step, show s.cdown[_]? = some true from hcl]; rfl
    · simp only [Sys.step, show s.cdown[_]? = some true from hcl]; rfl
  refine hno ⟨i, t, .down, _, ht, nofun, nofun, hst, ?_⟩
  have hr' : Reach P (s.goto i .done) := hr.reach.exec (a := .run i .down) (by rw [exec_run hcr ht]; exact hst)
  obtain ⟨r1, r2, r3, r4⟩ := rest_loads hr' (by
    intro u hu
    rcases List.mem_or_eq_of_mem_set hu with hu | rfl
    · exact hpark u hu
    · exact .inr rfl)
  exact ⟨.inl r1, .inl r3, .inl r2, by omega⟩

theorem left_ctrl {t : Thread} (h : holder t = none) (c c' : Ctrl) : leftInTick c t = leftInTick c' t := by
  cases t <;> first | rfl | cases h

/-- How the room for the rest of a tick changes. -/
structure TickEff (s s' : Sys) (S L T : Int) : Prop where
  send : ((s'.newest Chans.send).length : Int) = (s.newest Chans.send).length + S
  left : (s'.sum (leftInTick s'.ctrl) : Int) = s.sum (leftInTick s.ctrl) + L
  take : (s'.sum mayTake : Int) = s.sum mayTake + T

theorem tick_step {P : Params} {s s' : Sys} {i : Nat} {t : Thread} {c : Choice} (hr : TidyReach P s) (hp : s.phase = .stopped)
    (hl : s.lock = true) (ht : s.threads[i]? = some t) (h : s.step P i t c = some s') (hn : s'.crashed = none) :
    (s'.lock = false ∧ s.sum (leftInTick s.ctrl) = 0) ∨
    (s'.lock = true ∧ ∃ S L T : Int, TickEff s s' S L T ∧ 0 ≤ S + L - T ∧
      ((∀ g, t ≠ .slWait g) → (holder t).isSome = true ∨ mayTake t = 1 → S + L - T = 0)) := by
  have hsh : s.shutdown = true := (life hr.reach).shut.mpr (by rw [hp]; nofun)
  have hm := List.mem_of_getElem? ht
  have htop := latest hr t hm
  have hli := lin_inv hr.reach
  have same : ∀ {s' : Sys} {t' : Thread} {ex : List Thread} {S L T : Int}, s'.threads = s.threads.set i t' ++ ex →
      s'.ctrl = s.ctrl → s'.lock = s.lock → total (leftInTick s.ctrl) ex = 0 → total mayTake ex = 0 →
      ((s'.newest Chans.send).length : Int) = (s.newest Chans.send).length + S →
      (leftInTick s.ctrl t' : Int) = leftInTick s.ctrl t + L → (mayTake t' : Int) = mayTake t + T → 0 ≤ S + L - T →
      ((∀ g, t ≠ .slWait g) → (holder t).isSome = true ∨ mayTake t = 1 → S + L - T = 0) →
      (s'.lock = true ∧ ∃ S L T : Int, TickEff s s' S L T ∧ 0 ≤ S + L - T ∧
        ((∀ g, t ≠ .slWait g) → (holder t).isSome = true ∨ mayTake t = 1 → S + L - T = 0)) := by
    intro s' t' ex S L T h1 h2 h3 h4 h5 h6 h7 h8 h9 h10
    refine ⟨h3.trans hl, S, L, T, ⟨h6, ?_, ?_⟩, h9, h10⟩
    · have := sum_set ht h1 (leftInTick s.ctrl)
      rw [h2]; omega
    · have := sum_set ht h1 mayTake
      omega
  have chan : ∀ {g : Nat} {ch ch' : Chans}, s.chans[g]? = some ch → g + 1 = s.chans.length → ∀ j t',
      ((s.setCh g ch').goto j t').newest Chans.send = ch'.send := fun hg hgl _ _ =>
    (newest_top (f := Chans.send) hg hgl).2
  have old : ∀ {g : Nat} {ch : Chans}, s.chans[g]? = some ch → g + 1 = s.chans.length → s.newest Chans.send = ch.send :=
    fun {g ch} hg hgl => (newest_top (f := Chans.send) (ch' := ch) hg hgl).1
  cases step_Run h with
  | panic => simp [Sys.panic] at hn
  | move m hq =>
    refine .inr ?_
    cases m with
    | slGo hx => exact absurd (hsh.symm.trans hx) nofun
    | slDown => exact same (t' := .done) (ex := []) (S := 0) (L := 0) (T := -1) (by rw [List.append_nil]; rfl) rfl rfl rfl rfl (Int.add_zero _).symm rfl rfl (by omega) (fun hx => absurd rfl (hx _))
    | @duSend g e pend rest now =>
      refine same (t' := .duSend g e pend rest now) (ex := []) (S := 0) (L := 0) (T := 0) (by rw [List.append_nil]; rfl) rfl rfl rfl rfl (Int.add_zero _).symm ?_ rfl (by omega) (fun _ _ => rfl)
      simp only [leftInTick, List.length_cons]; omega
    | _ => exact same (ex := []) (S := 0) (L := 0) (T := 0) (by rw [List.append_nil]; rfl) rfl rfl rfl rfl (Int.add_zero _).symm rfl rfl (by omega) (fun _ _ => rfl)
  | popPoll hg hq =>
    refine .inr (same (ex := []) (S := 0) (L := 0) (T := 0) (by rw [List.append_nil]; rfl) rfl rfl rfl rfl ?_ rfl rfl (by omega) (fun _ _ => rfl))
    rw [chan hg htop, old hg htop]; exact (Int.add_zero _).symm
  | popRecv hg hq =>
    refine .inr (same (ex := []) (S := 0) (L := 0) (T := 0) (by rw [List.append_nil]; rfl) rfl rfl rfl rfl ?_ rfl rfl (by omega) (fun _ _ => rfl))
    rw [chan hg htop, old hg htop]; exact (Int.add_zero _).symm
  | popReply hg hq =>
    refine .inr (same (ex := []) (S := 0) (L := 0) (T := 0) (by rw [List.append_nil]; rfl) rfl rfl rfl rfl ?_ rfl rfl (by omega) (fun _ _ => rfl))
    rw [chan hg htop.1, old hg htop.1]; exact (Int.add_zero _).symm
  | popSend hg hq =>
    refine .inr (same (ex := []) (S := -1) (L := 0) (T := -1) (by rw [List.append_nil]; rfl) rfl rfl rfl rfl ?_ rfl rfl (by omega) (fun _ _ => rfl))
    rw [chan hg htop, old hg htop, hq]; simp only [List.length_cons]; omega
  | pushSend k hg hl =>
    cases k with
    | pr =>
      refine .inr (same (ex := []) (S := 1) (L := 0) (T := 0) (by rw [List.append_nil]; rfl) rfl rfl rfl rfl ?_ rfl rfl (by omega) (by rintro _ (hx | hx) <;> cases hx))
      rw [chan hg htop, old hg htop]; simp only [List.length_append, List.length_singleton]; omega
    | pl =>
      refine .inr (same (ex := []) (S := 1) (L := 0) (T := 0) (by rw [List.append_nil]; rfl) rfl rfl rfl rfl ?_ rfl rfl (by omega) (by rintro _ (hx | hx) <;> cases hx))
      rw [chan hg htop, old hg htop]; simp only [List.length_append, List.length_singleton]; omega
  | @pushDmx _ g e pend rest now ch hg hl =>
    refine .inr (same (t' := .duTick pend rest now) (ex := []) (S := 1) (L := -1) (T := 0) (by rw [List.append_nil]; rfl) rfl rfl rfl rfl ?_ ?_ rfl (by omega) (fun _ _ => rfl))
    · obtain ⟨e1, e2⟩ := newest_top (f := Chans.send) (ch' := { ch with
          send := ch.send ++ [Payload.mk e.address e.data], enq := ch.enq ++ [Payload.mk e.address e.data] }) hg htop
      rw [e1]
      show (((s.setCh g _).newest Chans.send).length : Int) = _
      rw [e2]
      simp only [List.length_append, List.length_singleton]; omega
    · simp only [leftInTick]; omega
  | pushRecv hg hl =>
    refine .inr (same (ex := []) (S := 0) (L := 0) (T := 0) (by rw [List.append_nil]; rfl) rfl rfl rfl rfl ?_ rfl rfl (by omega) (fun _ _ => rfl))
    rw [chan hg htop, old hg htop]; exact (Int.add_zero _).symm
  | pushPoll hg hl =>
    refine .inr (same (ex := []) (S := 0) (L := 0) (T := 0) (by rw [List.append_nil]; rfl) rfl rfl rfl rfl ?_ rfl rfl (by omega) (fun _ _ => rfl))
    rw [chan hg htop, old hg htop]; exact (Int.add_zero _).symm
  | @pushOwn _ g ch hg hl =>
    refine .inr (same (ex := []) (S := 0) (L := 0) (T := 0) (by rw [List.append_nil]; rfl) rfl rfl rfl rfl ?_ rfl rfl (by omega) (fun _ _ => rfl))
    obtain ⟨e1, e2⟩ := newest_top (f := Chans.send) (ch' := { ch with poll := ch.poll ++ [ArtPoll.new] }) hg htop
    rw [e1]
    show (((s.setCh g _).newest Chans.send).length : Int) = _
    rw [e2]; exact (Int.add_zero _).symm
  | pushReply hg hl =>
    refine .inr (same (ex := []) (S := 0) (L := 0) (T := 0) (by rw [List.append_nil]; rfl) rfl rfl rfl rfl ?_ rfl rfl (by omega) (fun _ _ => rfl))
    rw [chan hg htop, old hg htop]; exact (Int.add_zero _).symm
  | call hh hcl =>
    refine .inr (same (ex := []) (S := 0) (L := 0) (T := 0) (by rw [List.append_nil]; rfl) rfl rfl rfl rfl (Int.add_zero _).symm ?_ ?_ (by omega) (fun _ _ => rfl))
    · cases hcl <;> rfl
    · cases hcl <;> rfl
  | gc hx => rw [hl] at hx; cases hx
  | reply _ hx => rw [hl] at hx; cases hx
  | sendDMX hx => rw [hl] at hx; cases hx
  | lock hx _ => rw [hl] at hx; cases hx
  | unlock =>
    refine .inl ⟨rfl, sum_zero fun u hu => ?_⟩
    cases hh : holder u with
    | none => cases u <;> first | rfl | cases hh
    | some x =>
      obtain ⟨j, hj⟩ := List.mem_iff_getElem?.mp hu
      have := hli.only hj ht (by rw [hh]; rfl) rfl
      subst this
      rw [ht] at hj
      cases hj
      rfl
  | @tickAt _ a r rest now =>
    have e := dueOf_cons s.ctrl a r rest now (left_distinct hr.reach _ hm _ _ _ rfl)
    refine .inr ⟨hl, 0, 0, 0, ⟨(Int.add_zero _).symm, ?_, ?_⟩, by omega, fun _ _ => rfl⟩
    · have := total_change (f := leftInTick s.ctrl) (f' := leftInTick (s.ctrl.tickAt a r now).1) ht
        (.duTick (s.ctrl.tickAt a r now).2 rest now) fun j u hj hu => by
          cases hh : holder u with
          | none => exact left_ctrl hh _ _
          | some x => exact absurd (hli.only hu ht (by rw [hh]; rfl) rfl) hj
      have e2 : leftInTick (s.ctrl.tickAt a r now).1 (.duTick (s.ctrl.tickAt a r now).2 rest now) =
          leftInTick s.ctrl (.duTick [] ((a, r) :: rest) now) := by
        simp only [leftInTick, e, List.length_nil, Nat.zero_add]
      show ((total (leftInTick (s.ctrl.tickAt a r now).1) (s.threads.set i _) : Nat) : Int) = (total (leftInTick s.ctrl) s.threads : Nat) + 0
      omega
    · have := total_set mayTake ht (.duTick (s.ctrl.tickAt a r now).2 rest now)
      have e2 : mayTake (.duTick (s.ctrl.tickAt a r now).2 rest now) = mayTake (.duTick [] ((a, r) :: rest) now) := rfl
      show ((total mayTake (s.threads.set i _) : Nat) : Int) = (total mayTake s.threads : Nat) + 0
      omega
  | spawnReader =>
    exact .inr (same (t' := .rlTop) (ex := [.rdTop (List.replicate bufSize 0)]) (S := 0) (L := 0) (T := 0) rfl rfl rfl rfl rfl (Int.add_zero _).symm rfl rfl (by omega) (fun _ _ => rfl))
  | @spawnHandler _ p q hu =>
    exact .inr (same (t' := .rlTop) (ex := [.hStart q]) (S := 0) (L := 0) (T := 0) rfl rfl rfl rfl rfl (Int.add_zero _).symm rfl rfl (by omega) (fun _ _ => rfl))
  | accept hx _ => exact absurd (hsh.symm.trans hx) nofun
  | _ => exact .inr (same (ex := []) (S := 0) (L := 0) (T := 0) (by rw [List.append_nil]; rfl) rfl rfl rfl rfl (Int.add_zero _).symm rfl rfl (by omega) (fun _ _ => rfl))

theorem Unlocks.back {P : Params} {s s' : Sys} {i : Nat} {t : Thread} {c : Choice} (hr : TidyReach P s) (hp : s.phase = .stopped)
    (ht : s.threads[i]? = some t) (h : s.step P i t c = some s') (hn : s'.crashed = none) (hu : Unlocks s') : Unlocks s := by
  cases hl : s.lock with
  | false => exact .inl hl
  | true =>
    refine .inr ?_
    rcases tick_step hr hp hl ht h hn with ⟨_, h0⟩ | ⟨h1, S, L, T, ⟨e1, e2, e3⟩, h2, _⟩
    · have := (newest_le hr.reach).1
      omega
    · rcases hu with hu | hu
      · rw [h1] at hu; cases hu
      · omega

/-- As long as the lock is taken, some step leaves room for the rest of the tick. -/
theorem Unlocks.onward {P : Params} {s : Sys} (hr : TidyReach P s) (hp : s.phase = .stopped) (hlk : Thread.duLock ∉ s.threads)
    (hcrash : ∀ (i : Nat) (t : Thread) (c : Choice) (s' : Sys), s.threads[i]? = some t → c ≠ .tick → c ≠ .gcTick →
      s.step P i t c = some s' → s'.crashed = none)
    (h : Unlocks s) (hl : s.lock = true) :
    ∃ (i : Nat) (t : Thread) (c : Choice) (s' : Sys), s.threads[i]? = some t ∧ c ≠ .tick ∧ c ≠ .gcTick ∧
      s.step P i t c = some s' ∧ Unlocks s' := by
  have hx := h.resolve_left (by rw [hl]; nofun)
  have go : ∀ {i : Nat} {t : Thread}, s.threads[i]? = some t → t.selecting = false → t ≠ .done → t.queue s < 10 →
      t.locking = false → (holder t).isSome = true ∨ mayTake t = 1 →
      ∃ (i : Nat) (t : Thread) (c : Choice) (s' : Sys), s.threads[i]? = some t ∧ c ≠ .tick ∧ c ≠ .gcTick ∧
      s.step P i t c = some s' ∧ Unlocks s' := by
    intro i t ht hs hd hq hlo hh
    obtain ⟨c, s', c1, c2, hst⟩ := goes_on hr hp hlk ht hs hd hq (by rw [hlo]; nofun)
    refine ⟨i, t, c, s', ht, c1, c2, hst, ?_⟩
    rcases tick_step hr hp hl ht hst (hcrash i t c s' ht c1 c2 hst) with ⟨h1, _⟩ | ⟨_, S, L, T, ⟨e1, e2, e3⟩, _, h3⟩
    · exact .inl h1
    · have := h3 (by rintro g rfl; cases hs) hh
      exact .inr (by omega)
  obtain ⟨i, t, ht, hh⟩ := holder_exists hr.reach hl
  cases t <;> first | (cases hh; done) | skip
  · exact go ht rfl nofun (by show 0 < 10; omega) rfl (.inl rfl)
  · rename_i g e pend rest now
    by_cases hroom : (s.newest Chans.send).length < 10
    · exact go ht rfl nofun hroom rfl (.inl rfl)
    have h1 : 1 ≤ s.sum (leftInTick s.ctrl) := Nat.le_trans (by simp [leftInTick]) (total_ge (leftInTick s.ctrl) ht)
    obtain ⟨j, u, hu, hw⟩ := some_thread (s := s) (f := mayTake) (by omega)
    cases u <;> first | (simp [mayTake] at hw; done) | skip
    · exact go hu rfl nofun (by show 0 < 10; omega) rfl (.inr rfl)
    · rename_i g'
      have hgl : g' + 1 = s.chans.length := latest hr _ (List.mem_of_getElem? hu)
      have hg : s.chans[g']? = some s.chans[g'] := List.getElem?_eq_getElem (by omega)
      generalize s.chans[g'] = ch at hg
      have hnew := (newest_top (f := Chans.send) (ch' := ch) hg hgl).1
      rw [hnew] at hroom
      cases hq : ch.send with
      | nil => rw [hq] at hroom; simp at hroom
      | cons p q =>
        have hst : s.step P j (.slWait g') .next =
            some ((s.setCh g' { ch with send := q, taken := ch.taken ++ [p] }).goto j (.slCheck p)) := by
          simp only [Sys.step, hg, hq]; rfl
        refine ⟨j, _, .next, _, hu, nofun, nofun, hst, .inr ?_⟩
        have hn' : ((s.setCh g' { ch with send := q, taken := ch.taken ++ [p] }).goto j (.slCheck p)).newest Chans.send = q :=
          (newest_top (f := Chans.send) (ch' := { ch with send := q, taken := ch.taken ++ [p] }) hg hgl).2
        have k := fun f => sum_set (s' := (s.setCh g' { ch with send := q, taken := ch.taken ++ [p] }).goto j (.slCheck p))
          (t' := .slCheck p) (ex := []) hu (by rw [List.append_nil]; rfl) f
        have k1 := k (leftInTick s.ctrl)
        have k2 := k mayTake
        simp only [leftInTick, mayTake, total_nil] at k1 k2
        rw [hn']
        rw [hnew, hq, List.length_cons] at hx
        show q.length + Sys.sum _ (leftInTick s.ctrl) ≤ _
        omega
    · exact go hu rfl nofun (by show 0 < 10; omega) rfl (.inr rfl)

end Verif.Conc
