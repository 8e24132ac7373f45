import Verif.Lemmas.Conc
/-
The steps of one goroutine, with the goroutine and its choice in view.
-/
namespace Verif.Conc
open Packet Code Artnet

/-- The steps of goroutine `i`, which is at the given place, with the given choice. -/
inductive Run (P : Params) (s : Sys) (i : Nat) : Thread → Choice → Sys → Prop
  | panic {t c f} : Run P s i t c (s.panic f)
  | move {c t t'} (m : Move P s t t')
      (hq : c ≠ .tick → c ≠ .gcTick → t' ≠ .plSendTop ∧ t' ≠ .plGc ∧ t' ≠ .duLock) : Run P s i t c (s.goto i t')
  | popPoll {g me ch p q} (hg : s.chans[g]? = some ch)
      (hq : ch.poll = p :: q) : Run P s i (.prWait g me) c ((s.setCh g { ch with poll := q }).goto i (.prGot me))
  | popSend {g ch p q} (hg : s.chans[g]? = some ch)
      (hq : ch.send = p :: q) :
      Run P s i (.slWait g) c ((s.setCh g { ch with send := q, taken := ch.taken ++ [p] }).goto i (.slCheck p))
  | popRecv {g ch p q} (hg : s.chans[g]? = some ch)
      (hq : ch.recv = p :: q) : Run P s i (.rlWait g) c ((s.setCh g { ch with recv := q }).goto i (.rlParse p))
  | popReply {g k ch p q} (hg : s.chans[g]? = some ch)
      (hq : ch.pollReply = p :: q) :
      Run P s i (.plWait g k) c ((s.setCh g { ch with pollReply := q }).goto i (.plGot p))
  | pushSend {c t t' g p ch} (k : Sends P t t' g p)
      (hg : s.chans[g]? = some ch) (hl : ch.send.length < capacity) :
      Run P s i t c ((s.setCh g { ch with send := ch.send ++ [p], enq := ch.enq ++ [p] }).goto i t')
  | pushDmx {g e pend rest now ch} (hg : s.chans[g]? = some ch) (hl : ch.send.length < capacity) :
      Run P s i (.duSend g e pend rest now) c ({ s.setCh g { ch with
          send := ch.send ++ [Payload.mk e.address e.data], enq := ch.enq ++ [Payload.mk e.address e.data] } with
        emitted := s.emitted ++ [e] }.goto i (.duTick pend rest now))
  | pushRecv {g b p ch} (hg : s.chans[g]? = some ch) (hl : ch.recv.length < capacity) :
      Run P s i (.rdPush g b p) c ((s.setCh g { ch with recv := ch.recv ++ [p] }).goto i (.rdTop b))
  | pushPoll {g p ch} (hg : s.chans[g]? = some ch) (hl : ch.poll.length < capacity) :
      Run P s i (.hPoll g p) c ((s.setCh g { ch with poll := ch.poll ++ [p] }).goto i .done)
  | pushOwn {g ch} (hg : s.chans[g]? = some ch) (hl : ch.poll.length < capacity) :
      Run P s i (.plPoll g) c ({ s.setCh g { ch with poll := ch.poll ++ [ArtPoll.new] } with own := s.own + 1 }.goto i
        .plTop)
  | pushReply {g p ch} (hg : s.chans[g]? = some ch) (hl : ch.pollReply.length < capacity) :
      Run P s i (.hReply g p) c ((s.setCh g { ch with pollReply := ch.pollReply ++ [p] }).goto i .done)
  | write {p k} (hk : s.conn = some k)
      (ho : s.conns[k]? = some true) : Run P s i (.slWrite p) c ({ s with wire := s.wire ++ [p] }.goto i .slTop)
  | spawnReader :
      Run P s i .rlInit c { s.goto i .rlTop with
        threads := (s.goto i .rlTop).threads ++ [.rdTop (List.replicate bufSize 0)] }
  | spawnHandler {p q} (hu : unmarshal p.data = .ok (some q, none)) :
      Run P s i (.rlParse p) c { s.goto i .rlTop with threads := (s.goto i .rlTop).threads ++ [.hStart q] }
  | reject {p r} (hu : unmarshal p.data = .ok r)
      (hn : ∀ q, r ≠ (some q, none)) :
      Run P s i (.rlParse p) c ({ s with rejected := s.rejected ++ [p] }.goto i .rlTop)
  | arrive {k b src d} (ho : s.conns[k]? = some true) :
      Run P s i (.rdWait k b) c ({ s with arrived := s.arrived ++ [Payload.mk src d] }.goto i
        (.rdCheck (readInto b d).1 (some ((readInto b d).2, src))))
  | lose {b res} (h : s.shutdown = true) :
      Run P s i (.rdCheck b res) c ({ s with lost := s.lost ++ (payloadOf b res).toList }.goto i .done)
  | accept {b n src} (h : s.shutdown = false)
      (hi : ipEqual P.localIP src.ip = false) :
      Run P s i (.rdCheck b (some (n, src))) c ({ s with accepted := s.accepted ++ [Payload.mk src (copyInto (List.replicate n 0) b)] }.goto i
        (.rdGot b ⟨src, copyInto (List.replicate n 0) b⟩))
  | drop {p} (h : s.callbacks.get p.getOpCode = none) :
      Run P s i (.hStart p) c ({ s with dropped := s.dropped ++ [p] }.goto i .done)
  | call {p h t'} (hh : s.callbacks.get p.getOpCode = some h)
      (hc : Calls P h p t') : Run P s i (.hStart p) c ({ s with calls := s.calls ++ [(h, p)] }.goto i t')
  | gc {c k} (hl : s.lock = false) :
      Run P s i .plGc c ({ s with ctrl := s.ctrl.gcNode k, hist := s.hist ++ [Op.gc k] }.goto i .plTop)
  | ignore {p now} (hi : ignored p = true) :
      Run P s i (.plGot p) c ({ s with hist := s.hist ++ [Op.reply p now] }.goto i .plTop)
  | reply {p now} (hi : ignored p = false)
      (hl : s.lock = false) :
      Run P s i (.plGot p) c ({ s with
        ctrl := s.ctrl.pollReply p now
        hist := s.hist ++ [Op.reply p now] }.goto i .plTop)
  | lock {l now} (hl : s.lock = false)
      (hp : l.Perm s.ctrl.output.keys) :
      Run P s i .duLock c ({ s with lock := true, hist := s.hist ++ [Op.tick l now] }.goto i
        (.duTick [] (l.filterMap fun a => (s.ctrl.output.get a).map fun r => (a, r)) now))
  | unlock {now} :
      Run P s i (.duTick [] [] now) c ({ s with lock := false }.goto i .duTop)
  | tickAt {a r rest now} :
      Run P s i (.duTick [] ((a, r) :: rest) now) c ({ s with ctrl := (s.ctrl.tickAt a r now).1 }.goto i
        (.duTick (s.ctrl.tickAt a r now).2 rest now))
  | sendDMX {dmx a} (hl : s.lock = false) :
      Run P s i (.caller dmx a) c ({ s with ctrl := s.ctrl.sendDMX dmx a, hist := s.hist ++ [Op.send dmx a] }.goto i .done)

theorem step_Run {P : Params} {s s' : Sys} {i t c} (h : s.step P i t c = some s') : Run P s i t c s' := by
  unfold Sys.step at h
  split at h
  · -- prInit
    split at h
    · cases h; exact .panic
    · cases h; exact .move (.prInit (by assumption)) (by simp)
  · obtain ⟨g, hg, rfl⟩ := Option.map_eq_some_iff.mp h
    exact .move (.prTop hg) (by simp)
  · -- prWait
    split at h
    · cases h
    · rename_i hg
      split at h
      · cases h
      · rename_i hq; cases h; exact .popPoll hg hq
  · split at h
    · cases h
    · rename_i hg
      split at h
      · rename_i hd; cases h; exact .move (.prDown hg hd) (by simp)
      · cases h
  · obtain ⟨g, hg, rfl⟩ := Option.map_eq_some_iff.mp h
    exact .move (.prGot hg) (by simp)
  · obtain ⟨s1, hs, rfl⟩ := Option.map_eq_some_iff.mp h
    obtain ⟨ch, ch', hg, hf, rfl⟩ := comm_eq hs
    obtain ⟨hl, rfl⟩ := push_eq hf
    exact .pushSend .pr hg hl
  · -- slTop
    obtain ⟨g, hg, rfl⟩ := Option.map_eq_some_iff.mp h
    exact .move (.slTop hg) (by simp)
  · split at h
    · cases h
    · rename_i hg
      split at h
      · rename_i hd; cases h; exact .move (.slDown hg hd) (by simp)
      · cases h
  · split at h
    · cases h
    · rename_i hg
      split at h
      · cases h
      · rename_i hq; cases h; exact .popSend hg hq
  · split at h
    · rename_i hs; cases h; exact .move (.slStop hs) (by simp)
    · rename_i hs; cases h; exact .move (.slGo (by simpa using hs)) (by simp)
  · split at h
    · cases h
    · rename_i hk
      split at h
      · rename_i ho; cases h; exact .write hk ho
      · cases h
  · cases h; exact .move .slFail (by simp)
  · -- rlInit
    cases h; exact .spawnReader
  · obtain ⟨g, hg, rfl⟩ := Option.map_eq_some_iff.mp h
    exact .move (.rlTop hg) (by simp)
  · split at h
    · cases h
    · rename_i hg
      split at h
      · cases h
      · rename_i hq; cases h; exact .popRecv hg hq
  · split at h
    · cases h
    · rename_i hg
      split at h
      · rename_i hd; cases h; exact .move (.rlDown hg hd) (by simp)
      · cases h
  · -- rlParse
    split at h
    · rename_i hu; cases h; exact .panic
    · rename_i hu; cases h; exact .spawnHandler hu
    · rename_i hn hu; cases h
      exact .reject hu hn
  · -- rdTop
    obtain ⟨g, hg, rfl⟩ := Option.map_eq_some_iff.mp h
    exact .move (.rdTop hg) (by simp)
  · split at h
    · rename_i ho; cases h; exact .arrive ho
    · cases h
  · cases h; exact .move .rdFail (by simp)
  · -- rdCheck
    split at h
    · rename_i hs; cases h; exact .lose hs
    · rename_i hs
      split at h
      · cases h; exact .panic
      · split at h
        · rename_i hi; cases h; exact .move (.rdSelf (by simpa using hs) hi) (by simp)
        · rename_i hi; cases h; exact .accept (by simpa using hs) (by simpa using hi)
  · obtain ⟨g, hg, rfl⟩ := Option.map_eq_some_iff.mp h
    exact .move (.rdGot hg) (by simp)
  · obtain ⟨s1, hs, rfl⟩ := Option.map_eq_some_iff.mp h
    obtain ⟨ch, ch', hg, hf, rfl⟩ := comm_eq hs
    obtain ⟨hl, rfl⟩ := push_eq hf
    exact .pushRecv hg hl
  · -- hStart
    split at h
    · rename_i hh; cases h; exact .drop hh
    · cases h; exact .panic
    · rename_i hx hh
      dsimp only at h
      split at h
      · cases h; exact .call hh .poll
      · split at h
        · rename_i hc; cases h; exact .call hh (.reply hc)
        · rename_i hc; cases h; exact .call hh (.other nofun (fun _ _ _ => hc) nofun)
      · rename_i hn hn'; cases h; exact .call hh (.other hn (fun q h1 h2 => (hn' q h1 h2).elim) hx)
  · obtain ⟨g, hg, rfl⟩ := Option.map_eq_some_iff.mp h
    exact .move (.hPollTop hg) (by simp)
  · obtain ⟨s1, hs, rfl⟩ := Option.map_eq_some_iff.mp h
    obtain ⟨ch, ch', hg, hf, rfl⟩ := comm_eq hs
    obtain ⟨hl, rfl⟩ := push_eq hf
    exact .pushPoll hg hl
  · obtain ⟨g, hg, rfl⟩ := Option.map_eq_some_iff.mp h
    exact .move (.hReplyTop hg) (by simp)
  · obtain ⟨s1, hs, rfl⟩ := Option.map_eq_some_iff.mp h
    obtain ⟨ch, ch', hg, hf, rfl⟩ := comm_eq hs
    obtain ⟨hl, rfl⟩ := push_eq hf
    exact .pushReply hg hl
  · -- plSendTop
    obtain ⟨g, hg, rfl⟩ := Option.map_eq_some_iff.mp h
    exact .move (.plSendTop hg) (by simp)
  · obtain ⟨s1, hs, rfl⟩ := Option.map_eq_some_iff.mp h
    obtain ⟨ch, ch', hg, hf, rfl⟩ := comm_eq hs
    obtain ⟨hl, rfl⟩ := push_eq hf
    exact .pushSend .pl hg hl
  · obtain ⟨g, hg, rfl⟩ := Option.map_eq_some_iff.mp h
    exact .move (.plPollTop hg) (by simp)
  · obtain ⟨s1, hs, rfl⟩ := Option.map_eq_some_iff.mp h
    obtain ⟨ch, ch', hg, hf, rfl⟩ := comm_eq hs
    obtain ⟨hl, rfl⟩ := push_eq hf
    exact .pushOwn hg hl
  · split at h
    · rename_i hg hk; cases h; exact .move (.plTop hg hk) (by simp)
    · cases h
  · cases h; exact .move .plTick (fun h => absurd rfl h)
  · cases h; exact .move .plGcTick (fun _ h => absurd rfl h)
  · split at h
    · cases h
    · rename_i hg
      split at h
      · cases h
      · rename_i hq; cases h; exact .popReply hg hq
  · split at h
    · rename_i hd; cases h; exact .move (.plDown hd) (by simp)
    · cases h
  · split at h
    · cases h
    · rename_i hl; cases h; exact .gc (by simpa using hl)
  · split at h
    · rename_i hi; cases h; exact .ignore hi
    · rename_i hi
      split at h
      · cases h
      · rename_i hl; cases h; exact .reply (by simpa using hi) (by simpa using hl)
  · -- duInit
    split at h
    · rename_i hf; cases h; exact .panic
    · rename_i hf; cases h; exact .move (.duInit hf) (by simp)
  · obtain ⟨g, hg, rfl⟩ := Option.map_eq_some_iff.mp h
    exact .move (.duTop hg) (by simp)
  · cases h; exact .move .duTick (fun h => absurd rfl h)
  · split at h
    · rename_i hd; cases h; exact .move (.duDown hd) (by simp)
    · cases h
  · split at h
    · cases h
    · rename_i hl
      split at h
      · rename_i hp; cases h; exact .lock (by simpa using hl) (List.isPerm_iff.mp hp)
      · cases h
  · cases h; exact .unlock
  · cases h; exact .tickAt
  · obtain ⟨g, hg, rfl⟩ := Option.map_eq_some_iff.mp h
    exact .move (.duSend hg) (by simp)
  · obtain ⟨s1, hs, rfl⟩ := Option.map_eq_some_iff.mp h
    obtain ⟨ch, ch', hg, hf, rfl⟩ := comm_eq hs
    obtain ⟨hl, rfl⟩ := push_eq hf
    exact .pushDmx hg hl
  · split at h
    · cases h
    · rename_i hl; cases h; exact .sendDMX (by simpa using hl)
  · cases h

end Verif.Conc
