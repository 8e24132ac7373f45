import Verif.Model.Conc
/-
The steps of the concurrent model as an inductive relation, one constructor per kind of effect, and the
counting lemmas for the invariants.
-/
namespace Verif.Conc
open Packet Code Artnet

/-- Steps that only change the program counter of one goroutine. -/
inductive Move (P : Params) (s : Sys) : Thread → Thread → Prop
  | prInit {me} (h : P.me = .ok me) : Move P s .prInit (.prTop me)
  | prTop {g me} (h : s.cur = some g) : Move P s (.prTop me) (.prWait g me)
  | prDown {g me ch} (h : s.chans[g]? = some ch) (hd : ch.down = true) : Move P s (.prWait g me) .done
  | prGot {g me} (h : s.cur = some g) : Move P s (.prGot me) (.prSend g me)
  | slTop {g} (h : s.cur = some g) : Move P s .slTop (.slWait g)
  | slDown {g ch} (h : s.chans[g]? = some ch) (hd : ch.down = true) : Move P s (.slWait g) .done
  | slStop {p} (h : s.shutdown = true) : Move P s (.slCheck p) .done
  | slGo {p} (h : s.shutdown = false) : Move P s (.slCheck p) (.slWrite p)
  | slFail {p} : Move P s (.slWrite p) .slTop
  | rlTop {g} (h : s.cur = some g) : Move P s .rlTop (.rlWait g)
  | rlDown {g ch} (h : s.chans[g]? = some ch) (hd : ch.down = true) : Move P s (.rlWait g) .done
  | rdTop {k b} (h : s.conn = some k) : Move P s (.rdTop b) (.rdWait k b)
  | rdFail {k b} : Move P s (.rdWait k b) (.rdCheck b none)
  | rdSelf {b n src} (h : s.shutdown = false) (hi : ipEqual P.localIP src.ip = true) :
      Move P s (.rdCheck b (some (n, src))) (.rdTop b)
  | rdGot {g b p} (h : s.cur = some g) : Move P s (.rdGot b p) (.rdPush g b p)
  | hPollTop {g p} (h : s.cur = some g) : Move P s (.hPollTop p) (.hPoll g p)
  | hReplyTop {g p} (h : s.cur = some g) : Move P s (.hReplyTop p) (.hReply g p)
  | plSendTop {g} (h : s.cur = some g) : Move P s .plSendTop (.plSend g)
  | plPollTop {g} (h : s.cur = some g) : Move P s .plPollTop (.plPoll g)
  | plTop {g k} (h : s.cur = some g) (hk : s.ccur = some k) : Move P s .plTop (.plWait g k)
  | plTick {g k} : Move P s (.plWait g k) .plSendTop
  | plGcTick {g k} : Move P s (.plWait g k) .plGc
  | plDown {g k} (h : s.cdown[k]? = some true) : Move P s (.plWait g k) .done
  | duInit {d} (h : tickerPeriod P.maxFPS = .ok d) : Move P s .duInit .duTop
  | duTop {k} (h : s.ccur = some k) : Move P s .duTop (.duWait k)
  | duTick {k} : Move P s (.duWait k) .duLock
  | duDown {k} (h : s.cdown[k]? = some true) : Move P s (.duWait k) .done
  | duSend {g e pend rest now} (h : s.cur = some g) :
      Move P s (.duTick (e :: pend) rest now) (.duSend g e pend rest now)

/-- Why a step can panic. -/
inductive Panic (P : Params) (s : Sys) : Fault → Prop
  | me {i : Nat} {f} (ht : s.threads[i]? = some .prInit) (h : P.me = .error f) : Panic P s f
  | unmarshal {i : Nat} {p f} (ht : s.threads[i]? = some (.rlParse p)) (h : unmarshal p.data = .error f) :
      Panic P s f
  | callback {i : Nat} {p} (ht : s.threads[i]? = some (.hStart p)) (h : s.callbacks.get p.getOpCode = some .nil) :
      Panic P s .nilDereference
  | read {i : Nat} {b} (ht : s.threads[i]? = some (.rdCheck b none)) (h : s.shutdown = false) :
      Panic P s .nilDereference
  | ticker {i : Nat} {f} (ht : s.threads[i]? = some .duInit) (h : tickerPeriod P.maxFPS = .error f) : Panic P s f
  | stop (hc : s.control = .idle) (hp : P.controller = true) (h : s.tickers = false) :
      Panic P s .nilDereference
  | closeNil (hc : s.control = .closing) (h : s.cur = none) : Panic P s .closeOfNilChannel
  | closeNone {g} (hc : s.control = .closing) (h : s.cur = some g) (hg : s.chans[g]? = none) :
      Panic P s .closeOfNilChannel
  | closeClosed {g ch} (hc : s.control = .closing) (h : s.cur = some g) (hg : s.chans[g]? = some ch)
      (hd : ch.down = true) : Panic P s .closeOfClosedChannel
  | endNil (hc : s.control = .ending) (h : s.ccur = none) : Panic P s .closeOfNilChannel
  | endClosed {k} (hc : s.control = .ending) (h : s.ccur = some k) (hk : s.cdown[k]? = some true) :
      Panic P s .closeOfClosedChannel

/-- Sends to sendCh of generation `g` without other effect. -/
inductive Sends (P : Params) : Thread → Thread → Nat → Payload → Prop
  | pr {g me} : Sends P (.prSend g me) (.prTop me) g ⟨P.broadcast, me⟩
  | pl {g} : Sends P (.plSend g) .plPollTop g ⟨P.ctrlBroadcast, pollBytes⟩

/-- What a built-in or user call-back goes on with. -/
inductive Calls (P : Params) : Handler → AnyPacket → Thread → Prop
  | poll {q} : Calls P .poll (.poll q) (.hPollTop q)
  | reply {q} (h : P.config.type = StyleCode.stController) :
      Calls P .pollReply (.pollReply q) (.hReplyTop q)
  | other {h p} (hn : ∀ q, h = .poll → p = .poll q → False)
      (hr : ∀ q, h = .pollReply → p = .pollReply q → P.config.type ≠ StyleCode.stController)
      (hx : h ≠ .nil) : Calls P h p .done

/-- The state with channel `g` replaced. -/
def Sys.setCh (s : Sys) (g : Nat) (ch : Chans) : Sys := { s with chans := s.chans.set g ch }

/-- What Controller.Start does before Node.Start; nothing for a Node. -/
def Sys.reset (P : Params) (s : Sys) : Sys := if P.controller then s.resetTables else s

/-- The steps. -/
inductive Step (P : Params) (s : Sys) : Sys → Prop
  | panic {f} (h : Panic P s f) : Step P s (s.panic f)
  | move {i : Nat} {t t'} (ht : s.threads[i]? = some t) (m : Move P s t t') : Step P s (s.goto i t')
  | popPoll {i : Nat} {g me ch p q} (ht : s.threads[i]? = some (.prWait g me)) (hg : s.chans[g]? = some ch)
      (hq : ch.poll = p :: q) : Step P s ((s.setCh g { ch with poll := q }).goto i (.prGot me))
  | popSend {i : Nat} {g ch p q} (ht : s.threads[i]? = some (.slWait g)) (hg : s.chans[g]? = some ch)
      (hq : ch.send = p :: q) :
      Step P s ((s.setCh g { ch with send := q, taken := ch.taken ++ [p] }).goto i (.slCheck p))
  | popRecv {i : Nat} {g ch p q} (ht : s.threads[i]? = some (.rlWait g)) (hg : s.chans[g]? = some ch)
      (hq : ch.recv = p :: q) : Step P s ((s.setCh g { ch with recv := q }).goto i (.rlParse p))
  | popReply {i : Nat} {g k ch p q} (ht : s.threads[i]? = some (.plWait g k)) (hg : s.chans[g]? = some ch)
      (hq : ch.pollReply = p :: q) :
      Step P s ((s.setCh g { ch with pollReply := q }).goto i (.plGot p))
  | pushSend {i : Nat} {t t' g p ch} (ht : s.threads[i]? = some t) (k : Sends P t t' g p)
      (hg : s.chans[g]? = some ch) (hl : ch.send.length < capacity) :
      Step P s ((s.setCh g { ch with send := ch.send ++ [p], enq := ch.enq ++ [p] }).goto i t')
  | pushDmx {i : Nat} {g e pend rest now ch} (ht : s.threads[i]? = some (.duSend g e pend rest now))
      (hg : s.chans[g]? = some ch) (hl : ch.send.length < capacity) :
      Step P s ({ s.setCh g { ch with
          send := ch.send ++ [Payload.mk e.address e.data], enq := ch.enq ++ [Payload.mk e.address e.data] } with
        emitted := s.emitted ++ [e] }.goto i (.duTick pend rest now))
  | pushRecv {i : Nat} {g b p ch} (ht : s.threads[i]? = some (.rdPush g b p))
      (hg : s.chans[g]? = some ch) (hl : ch.recv.length < capacity) :
      Step P s ((s.setCh g { ch with recv := ch.recv ++ [p] }).goto i (.rdTop b))
  | pushPoll {i : Nat} {g p ch} (ht : s.threads[i]? = some (.hPoll g p))
      (hg : s.chans[g]? = some ch) (hl : ch.poll.length < capacity) :
      Step P s ((s.setCh g { ch with poll := ch.poll ++ [p] }).goto i .done)
  | pushOwn {i : Nat} {g ch} (ht : s.threads[i]? = some (.plPoll g))
      (hg : s.chans[g]? = some ch) (hl : ch.poll.length < capacity) :
      Step P s ({ s.setCh g { ch with poll := ch.poll ++ [ArtPoll.new] } with own := s.own + 1 }.goto i
        .plTop)
  | pushReply {i : Nat} {g p ch} (ht : s.threads[i]? = some (.hReply g p))
      (hg : s.chans[g]? = some ch) (hl : ch.pollReply.length < capacity) :
      Step P s ((s.setCh g { ch with pollReply := ch.pollReply ++ [p] }).goto i .done)
  | write {i : Nat} {p k} (ht : s.threads[i]? = some (.slWrite p)) (hk : s.conn = some k)
      (ho : s.conns[k]? = some true) : Step P s ({ s with wire := s.wire ++ [p] }.goto i .slTop)
  | spawnReader {i : Nat} (ht : s.threads[i]? = some .rlInit) :
      Step P s { s.goto i .rlTop with
        threads := (s.goto i .rlTop).threads ++ [.rdTop (List.replicate bufSize 0)] }
  | spawnHandler {i : Nat} {p q} (ht : s.threads[i]? = some (.rlParse p)) (hu : unmarshal p.data = .ok (some q, none)) :
      Step P s { s.goto i .rlTop with threads := (s.goto i .rlTop).threads ++ [.hStart q] }
  | reject {i : Nat} {p r} (ht : s.threads[i]? = some (.rlParse p)) (hu : unmarshal p.data = .ok r)
      (hn : ∀ q, r ≠ (some q, none)) :
      Step P s ({ s with rejected := s.rejected ++ [p] }.goto i .rlTop)
  | arrive {i : Nat} {k b src d} (ht : s.threads[i]? = some (.rdWait k b)) (ho : s.conns[k]? = some true) :
      Step P s ({ s with arrived := s.arrived ++ [Payload.mk src d] }.goto i
        (.rdCheck (readInto b d).1 (some ((readInto b d).2, src))))
  | lose {i : Nat} {b res} (ht : s.threads[i]? = some (.rdCheck b res)) (h : s.shutdown = true) :
      Step P s ({ s with lost := s.lost ++ (payloadOf b res).toList }.goto i .done)
  | accept {i : Nat} {b n src} (ht : s.threads[i]? = some (.rdCheck b (some (n, src)))) (h : s.shutdown = false)
      (hi : ipEqual P.localIP src.ip = false) :
      Step P s ({ s with accepted := s.accepted ++ [Payload.mk src (copyInto (List.replicate n 0) b)] }.goto i
        (.rdGot b ⟨src, copyInto (List.replicate n 0) b⟩))
  | drop {i : Nat} {p} (ht : s.threads[i]? = some (.hStart p)) (h : s.callbacks.get p.getOpCode = none) :
      Step P s ({ s with dropped := s.dropped ++ [p] }.goto i .done)
  | call {i : Nat} {p h t'} (ht : s.threads[i]? = some (.hStart p)) (hh : s.callbacks.get p.getOpCode = some h)
      (hc : Calls P h p t') : Step P s ({ s with calls := s.calls ++ [(h, p)] }.goto i t')
  | gc {i : Nat} {c} (ht : s.threads[i]? = some .plGc) (hl : s.lock = false) :
      Step P s ({ s with ctrl := s.ctrl.gcNode c, hist := s.hist ++ [Op.gc c] }.goto i .plTop)
  | ignore {i : Nat} {p now} (ht : s.threads[i]? = some (.plGot p)) (hi : ignored p = true) :
      Step P s ({ s with hist := s.hist ++ [Op.reply p now] }.goto i .plTop)
  | reply {i : Nat} {p now} (ht : s.threads[i]? = some (.plGot p)) (hi : ignored p = false)
      (hl : s.lock = false) :
      Step P s ({ s with
        ctrl := s.ctrl.pollReply p now
        hist := s.hist ++ [Op.reply p now] }.goto i .plTop)
  | lock {i : Nat} {l now} (ht : s.threads[i]? = some .duLock) (hl : s.lock = false)
      (hp : l.Perm s.ctrl.output.keys) :
      Step P s ({ s with lock := true, hist := s.hist ++ [Op.tick l now] }.goto i
        (.duTick [] (l.filterMap fun a => (s.ctrl.output.get a).map fun r => (a, r)) now))
  | unlock {i : Nat} {now} (ht : s.threads[i]? = some (.duTick [] [] now)) :
      Step P s ({ s with lock := false }.goto i .duTop)
  | tickAt {i : Nat} {a r rest now} (ht : s.threads[i]? = some (.duTick [] ((a, r) :: rest) now)) :
      Step P s ({ s with ctrl := (s.ctrl.tickAt a r now).1 }.goto i
        (.duTick (s.ctrl.tickAt a r now).2 rest now))
  | sendDMX {i : Nat} {dmx a} (ht : s.threads[i]? = some (.caller dmx a)) (hl : s.lock = false) :
      Step P s ({ s with ctrl := s.ctrl.sendDMX dmx a, hist := s.hist ++ [Op.send dmx a] }.goto i .done)
  | startPanic {f} (hc : s.control = .idle) (h : P.config.validate = .error f) :
      Step P s ((s.reset P).panic f)
  | startFail {e} (hc : s.control = .idle) (h : P.config.validate = .ok (some e)) :
      Step P s { s.reset P with results := s.results ++ [false] }
  | start (hc : s.control = .idle) (h : P.config.validate = .ok none) :
      Step P s (s.reset P).makeChannels
  | listen (hc : s.control = .listening) : Step P s { s with
      conns := s.conns ++ [true]
      conn := some s.conns.length
      tickers := s.tickers || P.controller
      threads := s.threads ++ P.goroutines
      results := s.results ++ [!(P.controller && s.shutdownErr)]
      control := .idle }
  | listenFail (hc : s.control = .listening) : Step P s { s with
      control := .idle, shutdownErr := true, results := s.results ++ [false] }
  | stop (hc : s.control = .idle) (ht : P.controller = true → s.tickers = true) :
      Step P s { s with shutdown := true, control := .closing, phase := .stopping }
  | close {g ch} (hc : s.control = .closing) (h : s.cur = some g) (hg : s.chans[g]? = some ch)
      (hd : ch.down = false) :
      Step P s { s.setCh g { ch with down := true } with control := .disconnecting }
  | disconnectC (hc : s.control = .disconnecting) (hp : P.controller = true) :
      Step P s { s with conns := s.closeConn, control := .ending }
  | disconnect (hc : s.control = .disconnecting) (hp : P.controller = false) :
      Step P s { s with conns := s.closeConn, control := .idle, phase := .stopped }
  | ended {k} (hc : s.control = .ending) (h : s.ccur = some k) (hk : s.cdown[k]? ≠ some true) :
      Step P s { s with cdown := s.cdown.set k true, control := .idle, phase := .stopped }
  | register {o h} (hc : s.control = .idle) (hs : s.shutdown = true) :
      Step P s { s with callbacks := s.callbacks.set o h }
  | deregister {o} (hc : s.control = .idle) (hs : s.shutdown = true) :
      Step P s { s with callbacks := s.callbacks.del o }
  | noRegister (hc : s.control = .idle) (hs : s.shutdown = false) : Step P s s
  | spawnCaller {dmx a} (hp : P.controller = true) :
      Step P s { s with threads := s.threads ++ [.caller dmx a] }

theorem comm_eq {s : Sys} {g f s'} (h : s.comm g f = some s') :
    ∃ ch ch', s.chans[g]? = some ch ∧ f ch = some ch' ∧ s' = s.setCh g ch' := by
  simp only [Sys.comm] at h
  split at h
  · cases h
  · rename_i ch hg
    split at h
    · cases h
    · rename_i ch' hf
      cases h
      exact ⟨ch, ch', hg, hf, rfl⟩

theorem push_eq {q : List α} {x : Chans} {o} (h : (if q.length < capacity then some x else none) = some o) :
    q.length < capacity ∧ o = x := by
  split at h
  · exact ⟨by assumption, by cases h; rfl⟩
  · cases h

theorem step_Step {P : Params} {s s' : Sys} {i t c} (ht : s.threads[i]? = some t)
    (h : s.step P i t c = some s') : Step P s s' := by
  unfold Sys.step at h
  split at h
  · -- prInit
    split at h
    · cases h; exact .panic (.me ht (by assumption))
    · cases h; exact .move ht (.prInit (by assumption))
  · obtain ⟨g, hg, rfl⟩ := Option.map_eq_some_iff.mp h
    exact .move ht (.prTop hg)
  · -- prWait
    split at h
    · cases h
    · rename_i hg
      split at h
      · cases h
      · rename_i hq; cases h; exact .popPoll ht hg hq
  · split at h
    · cases h
    · rename_i hg
      split at h
      · rename_i hd; cases h; exact .move ht (.prDown hg hd)
      · cases h
  · obtain ⟨g, hg, rfl⟩ := Option.map_eq_some_iff.mp h
    exact .move ht (.prGot hg)
  · obtain ⟨s1, hs, rfl⟩ := Option.map_eq_some_iff.mp h
    obtain ⟨ch, ch', hg, hf, rfl⟩ := comm_eq hs
    obtain ⟨hl, rfl⟩ := push_eq hf
    exact .pushSend ht .pr hg hl
  · -- slTop
    obtain ⟨g, hg, rfl⟩ := Option.map_eq_some_iff.mp h
    exact .move ht (.slTop hg)
  · split at h
    · cases h
    · rename_i hg
      split at h
      · rename_i hd; cases h; exact .move ht (.slDown hg hd)
      · cases h
  · split at h
    · cases h
    · rename_i hg
      split at h
      · cases h
      · rename_i hq; cases h; exact .popSend ht hg hq
  · split at h
    · rename_i hs; cases h; exact .move ht (.slStop hs)
    · rename_i hs; cases h; exact .move ht (.slGo (by simpa using hs))
  · split at h
    · cases h
    · rename_i hk
      split at h
      · rename_i ho; cases h; exact .write ht hk ho
      · cases h
  · cases h; exact .move ht .slFail
  · -- rlInit
    cases h; exact .spawnReader ht
  · obtain ⟨g, hg, rfl⟩ := Option.map_eq_some_iff.mp h
    exact .move ht (.rlTop hg)
  · split at h
    · cases h
    · rename_i hg
      split at h
      · cases h
      · rename_i hq; cases h; exact .popRecv ht hg hq
  · split at h
    · cases h
    · rename_i hg
      split at h
      · rename_i hd; cases h; exact .move ht (.rlDown hg hd)
      · cases h
  · -- rlParse
    split at h
    · rename_i hu; cases h; exact .panic (.unmarshal ht hu)
    · rename_i hu; cases h; exact .spawnHandler ht hu
    · rename_i hn hu; cases h
      exact .reject ht hu hn
  · -- rdTop
    obtain ⟨g, hg, rfl⟩ := Option.map_eq_some_iff.mp h
    exact .move ht (.rdTop hg)
  · split at h
    · rename_i ho; cases h; exact .arrive ht ho
    · cases h
  · cases h; exact .move ht .rdFail
  · -- rdCheck
    split at h
    · rename_i hs; cases h; exact .lose ht hs
    · rename_i hs
      split at h
      · cases h; exact .panic (.read ht (by simpa using hs))
      · split at h
        · rename_i hi; cases h; exact .move ht (.rdSelf (by simpa using hs) hi)
        · rename_i hi; cases h; exact .accept ht (by simpa using hs) (by simpa using hi)
  · obtain ⟨g, hg, rfl⟩ := Option.map_eq_some_iff.mp h
    exact .move ht (.rdGot hg)
  · obtain ⟨s1, hs, rfl⟩ := Option.map_eq_some_iff.mp h
    obtain ⟨ch, ch', hg, hf, rfl⟩ := comm_eq hs
    obtain ⟨hl, rfl⟩ := push_eq hf
    exact .pushRecv ht hg hl
  · -- hStart
    split at h
    · rename_i hh; cases h; exact .drop ht hh
    · rename_i hh; cases h; exact .panic (.callback ht hh)
    · rename_i hx hh
      dsimp only at h
      split at h
      · cases h; exact .call ht hh .poll
      · split at h
        · rename_i hc; cases h; exact .call ht hh (.reply hc)
        · rename_i hc; cases h; exact .call ht hh (.other nofun (fun _ _ _ => hc) nofun)
      · rename_i hn hn'; cases h; exact .call ht hh (.other hn (fun q h1 h2 => (hn' q h1 h2).elim) hx)
  · obtain ⟨g, hg, rfl⟩ := Option.map_eq_some_iff.mp h
    exact .move ht (.hPollTop hg)
  · obtain ⟨s1, hs, rfl⟩ := Option.map_eq_some_iff.mp h
    obtain ⟨ch, ch', hg, hf, rfl⟩ := comm_eq hs
    obtain ⟨hl, rfl⟩ := push_eq hf
    exact .pushPoll ht hg hl
  · obtain ⟨g, hg, rfl⟩ := Option.map_eq_some_iff.mp h
    exact .move ht (.hReplyTop hg)
  · obtain ⟨s1, hs, rfl⟩ := Option.map_eq_some_iff.mp h
    obtain ⟨ch, ch', hg, hf, rfl⟩ := comm_eq hs
    obtain ⟨hl, rfl⟩ := push_eq hf
    exact .pushReply ht hg hl
  · -- plSendTop
    obtain ⟨g, hg, rfl⟩ := Option.map_eq_some_iff.mp h
    exact .move ht (.plSendTop hg)
  · obtain ⟨s1, hs, rfl⟩ := Option.map_eq_some_iff.mp h
    obtain ⟨ch, ch', hg, hf, rfl⟩ := comm_eq hs
    obtain ⟨hl, rfl⟩ := push_eq hf
    exact .pushSend ht .pl hg hl
  · obtain ⟨g, hg, rfl⟩ := Option.map_eq_some_iff.mp h
    exact .move ht (.plPollTop hg)
  · obtain ⟨s1, hs, rfl⟩ := Option.map_eq_some_iff.mp h
    obtain ⟨ch, ch', hg, hf, rfl⟩ := comm_eq hs
    obtain ⟨hl, rfl⟩ := push_eq hf
    exact .pushOwn ht hg hl
  · split at h
    · rename_i hg hk; cases h; exact .move ht (.plTop hg hk)
    · cases h
  · cases h; exact .move ht .plTick
  · cases h; exact .move ht .plGcTick
  · split at h
    · cases h
    · rename_i hg
      split at h
      · cases h
      · rename_i hq; cases h; exact .popReply ht hg hq
  · split at h
    · rename_i hd; cases h; exact .move ht (.plDown hd)
    · cases h
  · split at h
    · cases h
    · rename_i hl; cases h; exact .gc ht (by simpa using hl)
  · split at h
    · rename_i hi; cases h; exact .ignore ht hi
    · rename_i hi
      split at h
      · cases h
      · rename_i hl; cases h; exact .reply ht (by simpa using hi) (by simpa using hl)
  · -- duInit
    split at h
    · rename_i hf; cases h; exact .panic (.ticker ht hf)
    · rename_i hf; cases h; exact .move ht (.duInit hf)
  · obtain ⟨g, hg, rfl⟩ := Option.map_eq_some_iff.mp h
    exact .move ht (.duTop hg)
  · cases h; exact .move ht .duTick
  · split at h
    · rename_i hd; cases h; exact .move ht (.duDown hd)
    · cases h
  · split at h
    · cases h
    · rename_i hl
      split at h
      · rename_i hp; cases h; exact .lock ht (by simpa using hl) (List.isPerm_iff.mp hp)
      · cases h
  · cases h; exact .unlock ht
  · cases h; exact .tickAt ht
  · obtain ⟨g, hg, rfl⟩ := Option.map_eq_some_iff.mp h
    exact .move ht (.duSend hg)
  · obtain ⟨s1, hs, rfl⟩ := Option.map_eq_some_iff.mp h
    obtain ⟨ch, ch', hg, hf, rfl⟩ := comm_eq hs
    obtain ⟨hl, rfl⟩ := push_eq hf
    exact .pushDmx ht hg hl
  · split at h
    · cases h
    · rename_i hl; cases h; exact .sendDMX ht (by simpa using hl)
  · cases h

/-- Every possible action is a step, and a process that has panicked does nothing. -/
theorem exec_Step {P : Params} {s s' : Sys} {a} (h : s.exec P a = some s') :
    s.crashed = none ∧ Step P s s' := by
  unfold Sys.exec at h
  split at h
  · cases h
  rename_i hcr
  refine ⟨by simpa using hcr, ?_⟩
  split at h
  · -- start
    split at h
    · cases h
    · rename_i hc
      have hc : s.control = .idle := by simpa using hc
      dsimp only at h
      split at h
      · rename_i hv; cases h; exact .startPanic hc hv
      · rename_i hv
        cases h
        have : (s.reset P).results = s.results := by simp only [Sys.reset]; split <;> rfl
        have h2 := Step.startFail (P := P) hc hv
        rw [← this] at h2
        exact h2
      · rename_i hv; cases h; exact .start hc hv
  · -- listen
    split at h
    · cases h
    · rename_i hc
      have hc : s.control = .listening := by simpa using hc
      split at h
      · cases h; exact .listen hc
      · cases h; exact .listenFail hc
  · -- stop
    split at h
    · cases h
    · rename_i hc
      have hc : s.control = .idle := by simpa using hc
      split at h
      · rename_i hp; cases h
        simp only [Bool.and_eq_true, Bool.not_eq_true'] at hp
        exact .panic (.stop hc hp.1 hp.2)
      · rename_i hp; cases h
        refine .stop hc (fun h => ?_)
        simpa [h] using hp
  · -- stopStep
    split at h
    · rename_i hc
      split at h
      · rename_i hk; cases h; exact .panic (.closeNil hc hk)
      · rename_i hk
        split at h
        · rename_i hg; cases h; exact .panic (.closeNone hc hk hg)
        · rename_i hg
          split at h
          · rename_i hd; cases h; exact .panic (.closeClosed hc hk hg hd)
          · rename_i hd; cases h; exact .close hc hk hg (by simpa using hd)
    · rename_i hc
      split at h
      · rename_i hp; cases h; exact .disconnectC hc hp
      · rename_i hp; cases h; exact .disconnect hc (by simpa using hp)
    · rename_i hc
      split at h
      · rename_i hk; cases h; exact .panic (.endNil hc hk)
      · rename_i hk
        split at h
        · rename_i hd; cases h; exact .panic (.endClosed hc hk hd)
        · rename_i hd; cases h; exact .ended hc hk hd
    · cases h
  · -- register
    split at h
    · cases h
    · rename_i hc
      have hc : s.control = .idle := by simpa using hc
      split at h
      · rename_i hs; cases h; exact .noRegister hc (by simpa using hs)
      · rename_i hs; cases h; exact .register hc (by simpa using hs)
  · split at h
    · cases h
    · rename_i hc
      have hc : s.control = .idle := by simpa using hc
      split at h
      · rename_i hs; cases h; exact .noRegister hc (by simpa using hs)
      · rename_i hs; cases h; exact .deregister hc (by simpa using hs)
  · split at h
    · rename_i hp; cases h; exact .spawnCaller hp
    · cases h
  · split at h
    · cases h
    · rename_i ht; exact step_Step ht h

end Verif.Conc
