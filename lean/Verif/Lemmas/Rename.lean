import Verif.Spec.Rename
import Verif.Lemmas.Live
import Verif.Lemmas.Traffic
import Verif.Lemmas.Alike
import Verif.Lemmas.Rated
import Verif.Lemmas.ConcRun
import Verif.Lemmas.ConcAlive
import Verif.Props.Config
/-
Steps of two systems of the same kind.
-/
namespace Verif.Artnet
open Spec Packet Code

theorem rated_same {c : Ctrl} {f : Int} (h : c.maxFPS = f) : c.rated f = c := by subst h; rfl

theorem gcFrom_rated (c : Ctrl) (f : Int) (clock : Nat → Int) (k : Nat) :
    (c.rated f).gcFrom clock k = (c.gcFrom clock k).rated f := by
  induction c, k using Ctrl.gcFrom.induct clock with
  | case1 c k k' h =>
    rw [gcFrom_stop (c := c) h, gcFrom_stop (c := c.rated f) h]
  | case2 c k i k' h r ih =>
    have hr : c.nodes[i]? = some r := List.getElem?_eq_getElem _
    rw [gcFrom_remove (c := c) h hr, gcFrom_remove (c := c.rated f) h hr]
    exact ih

theorem gcNode_rated (c : Ctrl) (f : Int) (clock : Nat → Int) : (c.rated f).gcNode clock = (c.gcNode clock).rated f :=
  gcFrom_rated c f clock 0

theorem updateNode_rated (c : Ctrl) (f : Int) (cfg : NodeConfig) (now : Int) :
    (c.rated f).updateNode cfg now = (c.updateNode cfg now).rated f := by
  unfold Ctrl.updateNode
  rw [show (c.rated f).nodes = c.nodes from rfl, show (c.rated f).heap = c.heap from rfl]
  split <;> rfl

theorem pollReply_rated (c : Ctrl) (f : Int) (p : ArtPollReply) (now : Int) :
    (c.rated f).pollReply p now = (c.pollReply p now).rated f := by
  unfold Ctrl.pollReply
  dsimp only
  split
  · rfl
  · split
    · rfl
    · exact updateNode_rated c f _ now

theorem sendDMX_rated (c : Ctrl) (f : Int) (d : Arr 512) (a : Address) :
    (c.rated f).sendDMX d a = (c.sendDMX d a).rated f := by
  unfold Ctrl.sendDMX
  rw [show (c.rated f).output = c.output from rfl]
  split <;> rfl

/-- At the rate `f` the controller does the same with this universe. -/
def TickSame (c : Ctrl) (f : Int) (a : Address) (r : Ref) (now : Int) : Prop :=
  (c.rated f).tickAt a r now = ((c.tickAt a r now).1.rated f, (c.tickAt a r now).2)

theorem TickSame.same {c : Ctrl} {f : Int} (h : c.maxFPS = f) (a : Address) (r : Ref) (now : Int) :
    TickSame c f a r now := by
  unfold TickSame
  rw [rated_same h, rated_same ((tickAt_maxFPS c a r now).trans h)]

theorem TickSame.due {c : Ctrl} {f : Int} {a : Address} {r : Ref} {now : Int}
    (h : Due (bufferAt (c.heap r) a) now c.maxFPS ↔ Due (bufferAt (c.heap r) a) now f) : TickSame c f a r now := by
  unfold TickSame
  rw [tickAt_eq, tickAt_eq]
  by_cases hd : Due (bufferAt (c.heap r) a) now c.maxFPS
  · rw [if_pos hd]
    exact if_pos (h.mp hd)
  · rw [if_neg hd]
    exact if_neg fun k => hd (h.mpr k)

end Verif.Artnet

namespace Verif.Conc
open Spec Packet Code Artnet

theorem redraft_me (P Q : Params) (a : UDPAddr) {me : Bytes} (h : P.me = .ok me) :
    Q.redraft ⟨a, me⟩ = ⟨Q.broadcast, pollReplyImage (announced Q.config)⟩ := by
  unfold Params.redraft
  rw [if_pos (me_is_reply h a)]

theorem redraft_poll (Q : Params) (a : UDPAddr) : Q.redraft ⟨a, pollBytes⟩ = ⟨Q.ctrlBroadcast, pollBytes⟩ := by
  unfold Params.redraft
  have : (byteAt pollBytes 8 == 0x00 && byteAt pollBytes 9 == 0x21) = false := by decide
  rw [if_neg (by rw [show isReply ⟨a, pollBytes⟩ = _ from this]; decide), if_pos (poll_is_poll a)]

theorem redraft_dmx (Q : Params) {e : Emission} (h : IsDMX e) (a : UDPAddr) : Q.redraft ⟨a, e.data⟩ = ⟨a, e.data⟩ := by
  have h9 := byteAt_of_take h.2.1 (show 9 < 12 by decide)
  have h1 : isReply ⟨a, e.data⟩ = false := by
    simp only [isReply, h9]
    simp [byteAt]
  unfold Params.redraft
  rw [h1, dmx_not_poll h a]
  rfl

/-- What must agree for a step of the goroutine to be the same. -/
def StepSame (P Q : Params) (c : Ctrl) : Thread → Prop
  | .rdCheck _ (some (_, a)) => ipEqual P.localIP a.ip = ipEqual Q.localIP a.ip
  | .duTick [] ((a, r) :: _) now => TickSame c Q.maxFPS a r now
  | .duInit => (∃ f, tickerPeriod P.maxFPS = .error f ∧ tickerPeriod Q.maxFPS = .error f) ∨
      ((tickerPeriod P.maxFPS).isOk ∧ (tickerPeriod Q.maxFPS).isOk)
  | _ => True

theorem as_goto (Q : Params) (s : Sys) (i : Nat) (t : Thread) : (s.goto i t).as Q = (s.as Q).goto i (t.as Q) := by
  simp only [Sys.as, Sys.goto, List.map_set]

theorem as_chan (Q : Params) (s : Sys) (g : Nat) : (s.as Q).chans[g]? = (s.chans[g]?).map (Chans.as Q) := by
  simp only [Sys.as, List.getElem?_map]

theorem as_set (Q : Params) (s : Sys) (g : Nat) (ch : Chans) :
    ({ s with chans := s.chans.set g ch } : Sys).as Q = { s.as Q with chans := (s.as Q).chans.set g (ch.as Q) } := by
  simp only [Sys.as, List.map_set]

theorem as_comm (Q : Params) (s : Sys) (g : Nat) {f f' : Chans → Option Chans}
    (hf : ∀ ch, f' (ch.as Q) = (f ch).map (Chans.as Q)) : (s.as Q).comm g f' = (s.comm g f).map (Sys.as Q) := by
  unfold Sys.comm
  rw [as_chan]
  cases s.chans[g]? with
  | none => rfl
  | some ch =>
    simp only [Option.map_some, hf]
    cases f ch with
    | none => rfl
    | some ch' =>
      simp only [Option.map_some]
      rw [as_set]

theorem pushSend_as (Q : Params) (p : Payload) (ch : Chans) :
    (ch.as Q).pushSend (Q.redraft p) = (ch.pushSend p).map (Chans.as Q) := by
  unfold Chans.pushSend
  rw [show (ch.as Q).send.length = ch.send.length from List.length_map _]
  split
  · simp only [Option.map_some, Chans.as, List.map_append, List.map_cons, List.map_nil]
  · rfl

theorem pushRecv_as (Q : Params) (p : Payload) (ch : Chans) :
    (ch.as Q).pushRecv p = (ch.pushRecv p).map (Chans.as Q) := by
  unfold Chans.pushRecv
  rw [show (ch.as Q).recv = ch.recv from rfl]
  split <;> rfl

theorem pushPoll_as (Q : Params) (p : ArtPoll) (ch : Chans) :
    (ch.as Q).pushPoll p = (ch.pushPoll p).map (Chans.as Q) := by
  unfold Chans.pushPoll
  rw [show (ch.as Q).poll = ch.poll from rfl]
  split <;> rfl

theorem pushReply_as (Q : Params) (p : ArtPollReply) (ch : Chans) :
    (ch.as Q).pushReply p = (ch.pushReply p).map (Chans.as Q) := by
  unfold Chans.pushReply
  rw [show (ch.as Q).pollReply = ch.pollReply from rfl]
  split <;> rfl

/-- A communication and the step to the next place. -/
theorem as_comm_goto (Q : Params) (s : Sys) (g i : Nat) {f f' : Chans → Option Chans} {t t' : Thread}
    (hf : ∀ ch, f' (ch.as Q) = (f ch).map (Chans.as Q)) (ht : t' = t.as Q) :
    ((s.as Q).comm g f').map (·.goto i t') = ((s.comm g f).map (·.goto i t)).map (Sys.as Q) := by
  rw [as_comm Q s g hf, Option.map_map, Option.map_map, ht]
  congr 1
  funext x
  exact (as_goto Q x i t).symm

/-- A field is read and the goroutine goes on. -/
theorem as_read (Q : Params) (s : Sys) (i : Nat) (o : Option Nat) (f : Nat → Thread) {f' : Nat → Thread}
    (hf : ∀ g, f' g = (f g).as Q) :
    (o.map fun g => (s.as Q).goto i (f' g)) = (o.map fun g => s.goto i (f g)).map (Sys.as Q) := by
  rw [Option.map_map]
  congr 1
  funext g
  rw [hf]
  exact (as_goto Q s i _).symm

/-- The case of the closed channel. -/
theorem as_down (Q : Params) (s : Sys) (g i : Nat) :
    (match (s.as Q).chans[g]? with
      | none => none
      | some ch => if ch.down then some ((s.as Q).goto i .done) else none) =
    (match s.chans[g]? with
      | none => none
      | some ch => if ch.down then some (s.goto i .done) else none).map (Sys.as Q) := by
  rw [as_chan]
  cases s.chans[g]? with
  | none => rfl
  | some ch =>
    simp only [Option.map_some]
    rw [show (ch.as Q).down = ch.down from rfl]
    split
    · simp only [Option.map_some, as_goto]; rfl
    · rfl

theorem as_one (Q : Params) (s : Sys) (i : Nat) {t t' : Thread} (ht : t' = t.as Q) :
    some ((s.as Q).goto i t') = (some (s.goto i t)).map (Sys.as Q) := by
  rw [ht, Option.map_some, as_goto]

theorem as_spawn (Q : Params) (s : Sys) (i : Nat) {t t' u u' : Thread} (ht : t' = t.as Q) (hu : u' = u.as Q) :
    some ({ (s.as Q).goto i t' with threads := ((s.as Q).goto i t').threads ++ [u'] } : Sys) =
    (some ({ s.goto i t with threads := (s.goto i t).threads ++ [u] } : Sys)).map (Sys.as Q) := by
  rw [ht, hu, ← as_goto, Option.map_some]
  simp only [Sys.as, List.map_append, List.map_cons, List.map_nil]

theorem step_as {P Q : Params} (hk : SameKind P Q) {s : Sys} {i : Nat} {t : Thread} (c : Choice)
    (hok : ThreadOK P t) (hd : DmxOK t) (hs : StepSame P Q s.ctrl t) :
    (s.as Q).step Q i (t.as Q) c = (s.step P i t c).map (Sys.as Q) := by
  cases t with
  | prInit =>
    cases c <;> try rfl
    simp only [Sys.step, Thread.as, me_eq]
    exact as_one Q s i rfl
  | prTop me =>
    cases c <;> try rfl
    exact as_read Q s i s.cur _ fun _ => rfl
  | prWait g me =>
    cases c <;> try rfl
    · simp only [Sys.step, Thread.as]
      rw [as_chan]
      cases s.chans[g]? with
      | none => rfl
      | some ch =>
        simp only [Option.map_some]
        rw [show (ch.as Q).poll = ch.poll from rfl]
        cases ch.poll with
        | nil => rfl
        | cons p q =>
          simp only [Option.map_some, as_goto, as_set]
          rfl
    · exact as_down Q s g i
  | prGot me =>
    cases c <;> try rfl
    exact as_read Q s i s.cur _ fun _ => rfl
  | prSend g me =>
    cases c <;> try rfl
    refine as_comm_goto Q s g i (fun ch => ?_) rfl
    rw [← pushSend_as, redraft_me P Q _ hok.1]
  | slTop =>
    cases c <;> try rfl
    exact as_read Q s i s.cur _ fun _ => rfl
  | slWait g =>
    cases c <;> try rfl
    · simp only [Sys.step, Thread.as]
      rw [as_chan]
      cases s.chans[g]? with
      | none => rfl
      | some ch =>
        simp only [Option.map_some]
        rw [show (ch.as Q).send = ch.send.map Q.redraft from rfl]
        cases ch.send with
        | nil => rfl
        | cons p q =>
          simp only [List.map_cons, Option.map_some, as_goto, as_set]
          simp only [Chans.as, List.map_append, List.map_cons, List.map_nil]
          rfl
    · exact as_down Q s g i
  | slCheck p =>
    cases c <;> try rfl
    simp only [Sys.step, Thread.as]
    rw [show (s.as Q).shutdown = s.shutdown from rfl]
    split <;> exact as_one Q s i rfl
  | slWrite p =>
    cases c <;> try rfl
    · simp only [Sys.step, Thread.as]
      rw [show (s.as Q).conn = s.conn from rfl, show (s.as Q).conns = s.conns from rfl]
      cases s.conn with
      | none => rfl
      | some k =>
        simp only
        split
        · simp only [Option.map_some, as_goto]
          simp only [Sys.as, List.map_append, List.map_cons, List.map_nil]
          rfl
        · rfl
    · exact as_one Q s i rfl
  | rlInit =>
    cases c <;> try rfl
    exact as_spawn Q s i (t := .rlTop) (u := .rdTop (List.replicate bufSize 0)) rfl rfl
  | rlTop =>
    cases c <;> try rfl
    exact as_read Q s i s.cur _ fun _ => rfl
  | rlWait g =>
    cases c <;> try rfl
    · simp only [Sys.step, Thread.as]
      rw [as_chan]
      cases s.chans[g]? with
      | none => rfl
      | some ch =>
        simp only [Option.map_some]
        rw [show (ch.as Q).recv = ch.recv from rfl]
        cases ch.recv with
        | nil => rfl
        | cons p q =>
          simp only [Option.map_some, as_goto, as_set]
          rfl
    · exact as_down Q s g i
  | rlParse p =>
    cases c <;> try rfl
    simp only [Sys.step, Thread.as]
    split
    · rfl
    · rename_i q _
      exact as_spawn Q s i (t := .rlTop) (u := .hStart q) rfl rfl
    · exact as_one Q { s with rejected := s.rejected ++ [p] } i (t := .rlTop) rfl
  | rdTop b =>
    cases c <;> try rfl
    exact as_read Q s i s.conn _ fun _ => rfl
  | rdWait k b =>
    cases c <;> try rfl
    · exact as_one Q s i rfl
    · rename_i src d
      simp only [Sys.step, Thread.as]
      rw [show (s.as Q).conns = s.conns from rfl]
      split
      · exact as_one Q { s with arrived := s.arrived ++ [Payload.mk src d] } i
          (t := .rdCheck (readInto b d).1 (some ((readInto b d).2, src))) rfl
      · rfl
  | rdCheck b res =>
    cases c <;> try rfl
    simp only [Sys.step, Thread.as]
    rw [show (s.as Q).shutdown = s.shutdown from rfl]
    split
    · exact as_one Q { s with lost := s.lost ++ (payloadOf b res).toList } i (t := .done) rfl
    · cases res with
      | none => rfl
      | some x =>
        obtain ⟨n, src⟩ := x
        simp only [StepSame] at hs
        simp only [hs]
        split
        · exact as_one Q s i rfl
        · exact as_one Q { s with accepted := s.accepted ++ [Payload.mk src (copyInto (List.replicate n 0) b)] } i
            (t := .rdGot b ⟨src, copyInto (List.replicate n 0) b⟩) rfl
  | rdGot b p =>
    cases c <;> try rfl
    exact as_read Q s i s.cur _ fun _ => rfl
  | rdPush g b p =>
    cases c <;> try rfl
    exact as_comm_goto Q s g i (pushRecv_as Q p) rfl
  | hStart p =>
    cases c <;> try rfl
    simp only [Sys.step, Thread.as]
    rw [show (s.as Q).callbacks = s.callbacks from rfl]
    split
    · exact as_one Q { s with dropped := s.dropped ++ [p] } i (t := .done) rfl
    · rfl
    · rename_i h _ _
      split
      · exact as_one Q { s with calls := s.calls ++ [_] } i (t := .hPollTop _) rfl
      · simp only [hk.style]
        split
        · exact as_one Q { s with calls := s.calls ++ [_] } i (t := .hReplyTop _) rfl
        · exact as_one Q { s with calls := s.calls ++ [_] } i (t := .done) rfl
      · exact as_one Q { s with calls := s.calls ++ [_] } i (t := .done) rfl
  | hPollTop p =>
    cases c <;> try rfl
    exact as_read Q s i s.cur _ fun _ => rfl
  | hPoll g p =>
    cases c <;> try rfl
    exact as_comm_goto Q s g i (pushPoll_as Q p) rfl
  | hReplyTop p =>
    cases c <;> try rfl
    exact as_read Q s i s.cur _ fun _ => rfl
  | hReply g p =>
    cases c <;> try rfl
    exact as_comm_goto Q s g i (pushReply_as Q p) rfl
  | plSendTop =>
    cases c <;> try rfl
    exact as_read Q s i s.cur _ fun _ => rfl
  | plSend g =>
    cases c <;> try rfl
    refine as_comm_goto Q s g i (fun ch => ?_) rfl
    rw [← pushSend_as, redraft_poll]
  | plPollTop =>
    cases c <;> try rfl
    exact as_read Q s i s.cur _ fun _ => rfl
  | plPoll g =>
    cases c <;> try rfl
    simp only [Sys.step, Thread.as]
    rw [as_comm Q s g (pushPoll_as Q ArtPoll.new), Option.map_map, Option.map_map]
    congr 1
    funext x
    exact (as_goto Q { x with own := x.own + 1 } i .plTop).symm
  | plTop =>
    cases c <;> try rfl
    simp only [Sys.step, Thread.as]
    rw [show (s.as Q).cur = s.cur from rfl, show (s.as Q).ccur = s.ccur from rfl]
    split
    · exact as_one Q s i rfl
    · rfl
  | plWait g k =>
    cases c <;> try rfl
    · simp only [Sys.step, Thread.as]
      rw [as_chan]
      cases s.chans[g]? with
      | none => rfl
      | some ch =>
        simp only [Option.map_some]
        rw [show (ch.as Q).pollReply = ch.pollReply from rfl]
        cases ch.pollReply with
        | nil => rfl
        | cons p q =>
          simp only [Option.map_some, as_goto, as_set]
          rfl
    · simp only [Sys.step, Thread.as]
      rw [show (s.as Q).cdown = s.cdown from rfl]
      split
      · exact as_one Q s i rfl
      · rfl
    · exact as_one Q s i rfl
    · exact as_one Q s i rfl
  | plGc =>
    cases c <;> try rfl
    rename_i c
    simp only [Sys.step, Thread.as]
    rw [show (s.as Q).lock = s.lock from rfl]
    split
    · rfl
    · rw [← as_one Q { s with ctrl := s.ctrl.gcNode c, hist := s.hist ++ [Op.gc c] } i (t := .plTop) rfl]
      congr 2
      exact congrArg (fun x => ({ s.as Q with ctrl := x, hist := s.hist ++ [Op.gc c] } : Sys)) (gcNode_rated s.ctrl Q.maxFPS c)
  | plGot p =>
    cases c <;> try rfl
    rename_i now
    simp only [Sys.step, Thread.as]
    rw [show (s.as Q).lock = s.lock from rfl]
    split
    · exact as_one Q { s with hist := s.hist ++ [Op.reply p now] } i (t := .plTop) rfl
    · split
      · rfl
      · rw [← as_one Q { s with ctrl := s.ctrl.pollReply p now, hist := s.hist ++ [Op.reply p now] } i (t := .plTop) rfl]
        congr 2
        exact congrArg (fun x => ({ s.as Q with ctrl := x, hist := s.hist ++ [Op.reply p now] } : Sys))
          (pollReply_rated s.ctrl Q.maxFPS p now)
  | duInit =>
    cases c <;> try rfl
    simp only [Sys.step, Thread.as]
    rcases hs with ⟨f, h1, h2⟩ | ⟨h1, h2⟩
    · rw [h1, h2]; rfl
    · cases h3 : tickerPeriod P.maxFPS with
      | error f => rw [h3] at h1; cases h1
      | ok x =>
        cases h4 : tickerPeriod Q.maxFPS with
        | error f => rw [h4] at h2; cases h2
        | ok y => exact as_one Q s i (t := .duTop) rfl
  | duTop =>
    cases c <;> try rfl
    exact as_read Q s i s.ccur _ fun _ => rfl
  | duWait k =>
    cases c <;> try rfl
    · simp only [Sys.step, Thread.as]
      rw [show (s.as Q).cdown = s.cdown from rfl]
      split
      · exact as_one Q s i rfl
      · rfl
    · exact as_one Q s i rfl
  | duLock =>
    cases c <;> try rfl
    rename_i l now
    simp only [Sys.step, Thread.as]
    rw [show (s.as Q).lock = s.lock from rfl, show (s.as Q).ctrl.output = s.ctrl.output from rfl]
    split
    · rfl
    · split
      · exact as_one Q { s with lock := true, hist := s.hist ++ [Op.tick l now] } i
          (t := .duTick [] (l.filterMap fun a => (s.ctrl.output.get a).map fun r => (a, r)) now) rfl
      · rfl
  | duTick pend rest now =>
    cases c <;> try (cases pend <;> cases rest <;> rfl)
    cases pend with
    | cons e pend => exact as_read Q s i s.cur _ fun _ => rfl
    | nil =>
      cases rest with
      | nil => exact as_one Q { s with lock := false } i (t := .duTop) rfl
      | cons x rest =>
        obtain ⟨a, r⟩ := x
        simp only [StepSame, TickSame] at hs
        simp only [Sys.step, Thread.as]
        rw [show (s.as Q).ctrl = s.ctrl.rated Q.maxFPS from rfl, hs]
        exact as_one Q { s with ctrl := (s.ctrl.tickAt a r now).1 } i
          (t := .duTick (s.ctrl.tickAt a r now).2 rest now) rfl
  | duSend g e pend rest now =>
    cases c <;> try rfl
    simp only [Sys.step, Thread.as]
    rw [as_comm Q s g (f := Chans.pushSend (Payload.mk e.address e.data)) (fun ch => by
      rw [← pushSend_as, redraft_dmx Q hd.1]), Option.map_map, Option.map_map]
    congr 1
    funext x
    exact (as_goto Q { x with emitted := x.emitted ++ [e] } i (.duTick pend rest now)).symm
  | caller d a =>
    cases c <;> try rfl
    simp only [Sys.step, Thread.as]
    rw [show (s.as Q).lock = s.lock from rfl]
    split
    · rfl
    · rw [← as_one Q { s with ctrl := s.ctrl.sendDMX d a, hist := s.hist ++ [Op.send d a] } i (t := .done) rfl]
      congr 2
      exact congrArg (fun x => ({ s.as Q with ctrl := x, hist := s.hist ++ [Op.send d a] } : Sys))
        (sendDMX_rated s.ctrl Q.maxFPS d a)
  | done => cases c <;> rfl

theorem as_init (P Q : Params) : (Sys.init P).as Q = Sys.init Q := rfl

theorem as_close (Q : Params) (s : Sys) : (s.as Q).closeConn = s.closeConn := rfl

/-- One action in both systems. -/
theorem exec_as {P Q : Params} (hk : SameKind P Q) {s : Sys} (hr : Reach P s) (a : Act)
    (hs : ∀ i c t, a = .run i c → s.threads[i]? = some t → StepSame P Q s.ctrl t) :
    (s.as Q).exec Q a = (s.exec P a).map (Sys.as Q) := by
  unfold Sys.exec
  rw [show (s.as Q).crashed = s.crashed from rfl]
  split
  · rfl
  cases a with
  | start =>
    dsimp only
    rw [show (s.as Q).control = s.control from rfl]
    split
    · rfl
    · obtain ⟨r, hr, hv⟩ := Props.C32_validate P.config
      obtain ⟨r', hr', hv'⟩ := Props.C32_validate Q.config
      have he : (if Q.controller = true then (s.as Q).resetTables else s.as Q) =
          (if P.controller = true then s.resetTables else s).as Q := by
        rw [hk.controller]
        split <;> rfl
      rw [he, hr, hr']
      generalize (if P.controller = true then s.resetTables else s) = s1
      cases r with
      | none =>
        have : r' = none := hv'.mpr (hk.valid.mp (hv.mp rfl))
        subst this
        simp only [Sys.makeChannels, Sys.as, List.map_append, List.map_cons, List.map_nil, List.length_map, Option.map_some]
        rfl
      | some e =>
        cases r' with
        | none => exact absurd (hv.mpr (hk.valid.mpr (hv'.mp rfl))) nofun
        | some e' => rfl
  | listen ok =>
    dsimp only
    rw [show (s.as Q).control = s.control from rfl]
    split
    · rfl
    · split
      · simp only [Option.map_some, Sys.as, List.map_append]
        have : P.goroutines.map (Thread.as Q) = Q.goroutines := by
          unfold Params.goroutines
          rw [hk.controller]
          split <;> rfl
        rw [this, hk.controller]
      · rfl
  | stop =>
    dsimp only
    rw [show (s.as Q).control = s.control from rfl, show (s.as Q).tickers = s.tickers from rfl, hk.controller]
    split
    · rfl
    · split <;> rfl
  | stopStep =>
    dsimp only
    rw [show (s.as Q).control = s.control from rfl]
    split
    · rw [show (s.as Q).cur = s.cur from rfl]
      split
      · rfl
      · rename_i g _
        rw [as_chan]
        cases s.chans[g]? with
        | none => rfl
        | some ch =>
          simp only [Option.map_some]
          rw [show (ch.as Q).down = ch.down from rfl]
          split
          · rfl
          · simp only [Option.map_some, Sys.as, List.map_set]
            rfl
    · rw [hk.controller]
      split <;> rfl
    · rw [show (s.as Q).ccur = s.ccur from rfl, show (s.as Q).cdown = s.cdown from rfl]
      split
      · rfl
      · split <;> rfl
    · rfl
  | register o h =>
    dsimp only
    rw [show (s.as Q).control = s.control from rfl, show (s.as Q).shutdown = s.shutdown from rfl]
    split
    · rfl
    · split <;> rfl
  | deregister o =>
    dsimp only
    rw [show (s.as Q).control = s.control from rfl, show (s.as Q).shutdown = s.shutdown from rfl]
    split
    · rfl
    · split <;> rfl
  | call d x =>
    dsimp only
    rw [hk.controller]
    split
    · simp only [Option.map_some, Sys.as, List.map_append, List.map_cons, List.map_nil]
      rfl
    · rfl
  | run i c =>
    dsimp only
    rw [show (s.as Q).threads[i]? = (s.threads[i]?).map (Thread.as Q) from List.getElem?_map ..]
    cases ht : s.threads[i]? with
    | none => rfl
    | some t =>
      have hm := List.mem_of_getElem? ht
      exact step_as hk c (threads_ok hr t hm) ((emitted_dmx hr).1 t hm) (hs i c t rfl ht)

/-- Both systems agree on where the datagrams that were read come from. -/
def HeardAlike (P Q : Params) (s : Sys) : Prop :=
  ∀ t ∈ s.threads, ∀ b n a, t = .rdCheck b (some (n, a)) → ipEqual P.localIP a.ip = ipEqual Q.localIP a.ip

theorem heard_goto {P Q : Params} {s : Sys} {i : Nat} {t : Thread} (h : HeardAlike P Q s)
    (ht : ∀ b n a, t = .rdCheck b (some (n, a)) → ipEqual P.localIP a.ip = ipEqual Q.localIP a.ip) :
    HeardAlike P Q (s.goto i t) := by
  intro u hu
  rcases List.mem_or_eq_of_mem_set hu with hu | rfl
  · exact h u hu
  · exact ht

theorem heard_append {P Q : Params} {s s' : Sys} {l : List Thread} (h : HeardAlike P Q s) (hs : s'.threads = s.threads ++ l)
    (hl : ∀ t ∈ l, ∀ b n a, t ≠ .rdCheck b (some (n, a))) : HeardAlike P Q s' := by
  intro u hu b n a e
  rw [hs] at hu
  rcases List.mem_append.mp hu with hu | hu
  · exact h u hu b n a e
  · exact absurd e (hl u hu b n a)

theorem heard_exec {P Q : Params} {s s' : Sys} {a : Act} (h : HeardAlike P Q s)
    (ha : ∀ i src d, a = .run i (.read src d) → ipEqual P.localIP src.ip = ipEqual Q.localIP src.ip)
    (hx : s.exec P a = some s') : HeardAlike P Q s' := by
  have hcr := (exec_Step hx).1
  cases a with
  | run i c =>
    cases hi : s.threads[i]? with
    | none =>
      unfold Sys.exec at hx
      simp [hcr, hi] at hx
    | some t =>
      rw [exec_run hcr hi] at hx
      by_cases ht : ∃ k b, t = .rdWait k b
      · obtain ⟨k, b, rfl⟩ := ht
        cases c <;> simp only [Sys.step] at hx <;> try (cases hx; done)
        · cases hx
          exact heard_goto h (by intro b n a e; cases e)
        · split at hx
          · cases hx
            refine heard_goto (s := { s with arrived := _ }) h ?_
            intro b n a e
            cases e
            exact ha i _ _ rfl
          · cases hx
      · cases step_Run hx with
        | panic => exact h
        | move m =>
          refine heard_goto h ?_
          intro b n a e
          subst e
          cases m
        | spawnReader => exact heard_append (s := s.goto i .rlTop) (heard_goto h (by intro b n a e; cases e)) rfl (by simp)
        | spawnHandler => exact heard_append (s := s.goto i .rlTop) (heard_goto h (by intro b n a e; cases e)) rfl (by simp)
        | arrive => exact absurd ⟨_, _, rfl⟩ ht
        | pushSend k => exact heard_goto (s := s.setCh _ _) h (by intro b n a e; subst e; cases k)
        | call _ hc => exact heard_goto (s := { s with calls := _ }) h (by intro b n a e; subst e; cases hc)
        | _ => exact heard_goto (P := P) (Q := Q) h (by intro b n a e; cases e)
  | listen ok =>
    unfold Sys.exec at hx
    simp only [hcr, Option.isSome_none, Bool.false_eq_true, if_false] at hx
    split at hx
    · cases hx
    · split at hx
      · cases hx
        refine heard_append (l := P.goroutines) h rfl ?_
        intro t ht b n a e
        subst e
        unfold Params.goroutines at ht
        split at ht <;> simp at ht
      · cases hx
        exact h
  | call d x =>
    unfold Sys.exec at hx
    simp only [hcr, Option.isSome_none, Bool.false_eq_true, if_false] at hx
    split at hx
    · cases hx
      exact heard_append (l := [.caller d x]) h rfl (by simp)
    · cases hx
  | start | stop | stopStep | register | deregister =>
    unfold Sys.exec at hx
    simp only [hcr, Option.isSome_none, Bool.false_eq_true, if_false, Sys.panic, Sys.resetTables, Sys.makeChannels] at hx
    (repeat' split at hx) <;> first | (cases hx; done) | (cases hx; exact h)

/-- In every step of the execution a tick treats its universe alike at both rates. -/
def TicksAlike (P Q : Params) (s : Sys) : List Act → Prop
  | [] => True
  | a :: as => (∀ i c b r rest now, a = .run i c → s.threads[i]? = some (.duTick [] ((b, r) :: rest) now) →
      TickSame s.ctrl Q.maxFPS b r now) ∧
    ∀ s', s.exec P a = some s' → TicksAlike P Q s' as

/-- Every execution of a system is an execution of each other system of the same kind. -/
theorem execs_as {P Q : Params} (hk : SameKind P Q)
    (hp : P.controller = true → (∃ f, tickerPeriod P.maxFPS = .error f ∧ tickerPeriod Q.maxFPS = .error f) ∨
      ((tickerPeriod P.maxFPS).isOk ∧ (tickerPeriod Q.maxFPS).isOk)) {as : List Act} {s : Sys} (hr : Reach P s)
    (h : HeardAlike P Q s) (hl : hearAlike P Q as) (ht : TicksAlike P Q s as) :
    (s.as Q).execs Q as = (s.execs P as).map (Sys.as Q) := by
  induction as generalizing s with
  | nil => rfl
  | cons a as ih =>
    simp only [Sys.execs]
    rw [exec_as hk hr a]
    · cases hx : s.exec P a with
      | none => rfl
      | some s' =>
        exact ih (hr.exec hx) (heard_exec h (fun i src d e => hl i src d (e ▸ List.mem_cons_self)) hx)
          (fun i src d hm => hl i src d (List.mem_cons_of_mem _ hm)) (ht.2 s' hx)
    · rintro i c t rfl hi
      cases t with
      | rdCheck b res =>
        cases res with
        | none => trivial
        | some x => exact h _ (List.mem_of_getElem? hi) b x.1 x.2 rfl
      | duTick pend rest now =>
        cases pend with
        | cons => trivial
        | nil =>
          cases rest with
          | nil => trivial
          | cons x rest => exact ht.1 i c x.1 x.2 rest now rfl hi
      | duInit => exact hp ((threads_ok hr _ (List.mem_of_getElem? hi)).2 rfl)
      | _ => trivial

theorem reach_maxFPS {P : Params} {s : Sys} (h : Reach P s) : s.ctrl.maxFPS = P.maxFPS :=
  Reach.inductExec (P := P) (I := fun s => s.ctrl.maxFPS = P.maxFPS) rfl (fun _ _ _ _ ih hx => (exec_maxFPS hx).trans ih) h

theorem ticksAlike_same {P Q : Params} (hf : P.controller = true → P.maxFPS = Q.maxFPS) {as : List Act} {s : Sys}
    (hr : Reach P s) : TicksAlike P Q s as := by
  induction as generalizing s with
  | nil => trivial
  | cons a as ih =>
    refine ⟨fun i c b r rest now _ hi => TickSame.same ?_ b r now, fun s' hx => ih (hr.exec hx)⟩
    rw [reach_maxFPS hr]
    exact hf ((threads_ok hr _ (List.mem_of_getElem? hi)).2 rfl)

end Verif.Conc
