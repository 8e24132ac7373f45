import Verif.Lemmas.TickersStop
import Verif.Lemmas.TickersSent
import Verif.Lemmas.TrafficFor
import Verif.Props.Traffic
import Verif.Props.Ticker
import Verif.Props.Rate
import Verif.Props.Follow
/-
The tickers: C147, C148, C149.
-/
namespace Verif.Props
open Spec Packet Code Artnet Conc

/-! ### C147 -/

/-- Whether a condition holds after actions with tickers. -/
def afterTimed (discards : Bool) (P : Params) (as : List TimedAct) (f : Timed → Bool) : Bool :=
  ((Timed.init P).execs discards P as).any f

/-- Start, the first ArtPoll of pollLoop, three seconds, a tick of the poll ticker, which is received, and the ArtPoll for it; both
are written. -/
def sampleTickPoll : List TimedAct :=
  sampleStart.map .act ++ List.replicate 5 (.act (.run 3 .next)) ++
    [.pass 3000000000, .fire .poll 0, .act (.run 3 .tick)] ++ List.replicate 3 (.act (.run 3 .next)) ++
    List.replicate 8 (.act (.run 2 .next))

/-- Start, a node is discovered and a frame stored, a millisecond, a tick of the ticker of dmxUpdateLoop, which is received, and the
ArtDMX for it is written. -/
def sampleFrameTick : List TimedAct :=
  sampleReady.map .act ++ [.pass 1000000, .fire .update 0] ++ sampleFollow.map .act

/-- A tick waits in the channel of the poll ticker when Stop is called; the loop then receives it. -/
def sampleLateTick : List TimedAct :=
  sampleStart.map .act ++ List.replicate 5 (.act (.run 3 .next)) ++
    [.pass 3000000000, .fire .poll 0, .act .stop]

/-- C147: what the program does with tickers it can do without, so that what holds of all executions without tickers holds of those
with tickers. -/
theorem C147_refines {discards : Bool} {P : Params} {as : List TimedAct} {t : Timed}
    (h : (Timed.init P).execs discards P as = some t) : (Sys.init P).execs P (programActs as) = some t.sys := by
  have key : ∀ (as : List TimedAct) (u : Timed), u.execs discards P as = some t → u.sys.execs P (programActs as) = some t.sys := by
    intro as
    induction as with
    | nil => intro u h; cases h; rfl
    | cons a as ih =>
      intro u h
      simp only [Timed.execs] at h
      cases hx : u.exec discards P a with
      | none => rw [hx] at h; cases h
      | some u1 =>
        rw [hx] at h
        rw [programActs_cons, execs_append, exec_sys hx]
        exact ih u1 h
  exact key as _ h

example : afterTimed true sampleController sampleTickPoll (fun t => t.sys.wire.countP isArtPoll == 2) = true := by decide +kernel

/-- The ticks are needed: without one, or before it is due, nothing is received. -/
example : afterTimed true sampleController (sampleStart.map .act ++ List.replicate 5 (.act (.run 3 .next)) ++
      [.pass 3000000000]) (fun t => (t.exec true sampleController (.act (.run 3 .tick))).isNone &&
        (t.sys.exec sampleController (.run 3 .tick)).isSome && (t.exec true sampleController (.fire .poll 0)).isSome) = true ∧
    afterTimed true sampleController (sampleStart.map .act ++ List.replicate 5 (.act (.run 3 .next)) ++
      [.pass 2999999999]) (fun t => (t.exec true sampleController (.fire .poll 0)).isNone) = true := by
  constructor <;> decide +kernel

/-- C147: conversely, every execution in which pollLoop receives no tick after Stop is possible with tickers. -/
theorem C147_lifts (discards : Bool) {P : Params} {as : List Act} {s : Sys} (hq : QuietAfterStop P as)
    (h : (Sys.init P).execs P as = some s) :
    ∃ bs t, (Timed.init P).execs discards P bs = some t ∧ programActs bs = as ∧ t.sys = s :=
  lifts as (pre := []) hq rfl (geared_init P) (fun _ _ _ hx => by cases hx) h

example : QuietAfterStop sampleController (sampleReady ++ sampleFollow) ∧
    after sampleController (sampleReady ++ sampleFollow) (fun s => s.wire.countP isDmx == 1) = true := by
  constructor
  · intro pre a post s he hs
    have h1 : Act.stop ∈ sampleReady ++ sampleFollow := he ▸ List.mem_append_left _ hs
    have h2 : (sampleReady ++ sampleFollow).all (fun | .stop => false | _ => true) = true := by decide +kernel
    cases List.all_eq_true.mp h2 _ h1
  · decide +kernel

/-- C147: a tick that is received from a ticker is in its channel before or is sent meanwhile. -/
theorem C147_sent {discards : Bool} {P : Params} {t t' : Timed} {as : List TimedAct} (h : t.execs discards P as = some t')
    (q : Clockwork) (k : Nat) {x : Ticker} (hx : (t.tickers q)[k]? = some x) :
    ticksTaken discards P q k t as ≤ (if x.tick then 1 else 0) + ticksSent q k as := by
  obtain ⟨y, _, hk⟩ := execs_kept h hx
  have := hk.count
  simp only [waits] at this
  omega

example : afterTimed true sampleController (sampleTickPoll.take 11) (fun t => (t.tickers .poll).any (!·.tick) &&
    ticksTaken true sampleController .poll 0 t (sampleTickPoll.drop 11) == 1 && ticksSent .poll 0 (sampleTickPoll.drop 11) == 1 &&
    (t.execs true sampleController (sampleTickPoll.drop 11)).isSome) = true := by decide +kernel

/-- C147: after a ticker has been stopped at most one tick is received from it: the one in the channel, which Stop may discard. -/
theorem C147_stopped {discards : Bool} {P : Params} {t t' : Timed} {as : List TimedAct} (h : t.execs discards P as = some t')
    (q : Clockwork) (k : Nat) {x : Ticker} (hx : (t.tickers q)[k]? = some x) (hs : x.stopped = true) :
    ticksTaken discards P q k t as ≤ if x.tick then 1 else 0 := by
  obtain ⟨y, _, hk⟩ := execs_kept h hx
  have := hk.count
  have := (hk.stopped hs).2
  simp only [waits] at *
  omega

/-- C147: where Stop discards the tick in the channel (Go 1.23), nothing is received from the poll ticker and the gc ticker that it
has stopped. -/
theorem C147_discarded {P : Params} {t t1 t' : Timed} {as : List TimedAct} (hP : P.controller = true)
    (hs : t.exec true P (.act .stop) = some t1) (h : t1.execs true P as = some t') :
    (∀ k x, t.poll = some k → (t1.tickers .poll)[k]? = some x → ticksTaken true P .poll k t1 as = 0) ∧
    (∀ k x, t.gc = some k → (t1.tickers .gc)[k]? = some x → ticksTaken true P .gc k t1 as = 0) := by
  simp only [Timed.exec] at hs
  split at hs
  · cases hs
  · simp only [Timed.follow, hP, if_true, Option.map_some, Option.some.injEq] at hs
    subst hs
    constructor <;> intro k x hk hx
    all_goals
      have h1 := C147_stopped h _ k hx
      have h2 : x.stopped = true ∧ x.tick = false := by
        simp only [hk, Timed.halt] at hx
        cases hg : t.gc <;> cases hp : t.poll <;> simp_all [Timed.put]
        all_goals
          obtain ⟨y, _, rfl⟩ := hx
          exact ⟨rfl, by simp [Ticker.stop]⟩
      simp only [h2.2, Bool.false_eq_true, if_false] at h1
      have := h1 h2.1
      omega

/-- Before Go 1.23 the tick that waits when Stop is called is received, since it is discarded it is not. -/
example : afterTimed false sampleController sampleLateTick
      (fun t => (t.exec false sampleController (.act (.run 3 .tick))).isSome) = true ∧
    afterTimed true sampleController sampleLateTick
      (fun t => (t.exec true sampleController (.act (.run 3 .tick))).isNone) = true := by
  constructor <;> decide +kernel

/-! ### C148 -/

/-- C148 as stated: when Stop has returned, no ticker of the controller runs any more. -/
def C148_statement : Prop := ∀ (discards : Bool) (P : Params) (as : List TimedAct) (t : Timed), P.controller = true →
  (Timed.init P).execs discards P as = some t → t.sys.phase = .stopped → ∀ q, ∀ x ∈ t.tickers q, x.stopped = true

/-- Start, dmxUpdateLoop makes its ticker, Stop. -/
def sampleUpdateStop : List TimedAct :=
  [.act .start, .act (.listen true), .act (.run 4 .next), .act (.run 4 .next), .act .stop, .act .stopStep, .act .stopStep,
    .act .stopStep, .act (.run 4 .down)]

/-- C148 is false: the ticker of dmxUpdateLoop is never stopped, not even when dmxUpdateLoop returns. -/
theorem C148_false : ¬ C148_statement := by
  intro h
  have hx : afterTimed true sampleController sampleUpdateStop (fun t => t.sys.phase == .stopped &&
      t.sys.threads[4]? == some .done && (t.tickers .update).any fun x => !x.stopped) = true := by decide +kernel
  simp only [afterTimed, Option.any_eq_true] at hx
  obtain ⟨t, ht, hx⟩ := hx
  simp only [Bool.and_eq_true, beq_iff_eq, List.any_eq_true, Bool.not_eq_true'] at hx
  obtain ⟨⟨h1, _⟩, x, h2, h3⟩ := hx
  have := h true sampleController sampleUpdateStop t rfl ht h1 .update x h2
  rw [h3] at this
  cases this

/-- C148: the poll tickers and the gc tickers are all stopped just when after every Start that succeeds Stop is called before the
next one succeeds; the tickers of dmxUpdateLoop are never stopped. -/
theorem C148_exact {discards : Bool} {P : Params} {as : List TimedAct} {t : Timed} (hP : P.controller = true)
    (h : (Timed.init P).execs discards P as = some t) :
    ((∀ x ∈ t.tickers .poll, x.stopped = true) ↔ stopsEvery (programActs as) = true) ∧
    ((∀ x ∈ t.tickers .gc, x.stopped = true) ↔ stopsEvery (programActs as) = true) ∧
    ∀ x ∈ t.tickers .update, x.stopped = false := by
  have key : ∀ q, q ≠ .update → ((∀ x ∈ t.tickers q, x.stopped = true) ↔ stopsEvery (programActs as) = true) := by
    intro q hq
    rw [execs_status hP hq h]
    have h1 : Old (Timed.init P) q := fun k c hc => by cases q <;> cases hc
    have h2 : Cur (Timed.init P) q := fun k c hc => by cases q <;> cases hc
    simp [h1, h2]
  exact ⟨key _ nofun, key _ nofun, (execs_geared (geared_init P) h).update⟩

/-- C148, what holds: when after every Start that succeeds Stop is called before the next one succeeds, the poll tickers and the gc
tickers are all stopped. -/
theorem C148_partial {discards : Bool} {P : Params} {as : List TimedAct} {t : Timed} (hP : P.controller = true)
    (h : (Timed.init P).execs discards P as = some t) (hs : stopsEvery (programActs as) = true) :
    ∀ q, q ≠ .update → ∀ x ∈ t.tickers q, x.stopped = true := by
  obtain ⟨h1, h2, _⟩ := C148_exact hP h
  intro q hq
  cases q with
  | poll => exact h1.mpr hs
  | gc => exact h2.mpr hs
  | update => exact absurd rfl hq

/-- Stop after Start; and two Starts before one Stop, after which the poll ticker of the first still runs. -/
example : stopsEvery (programActs sampleUpdateStop) = true ∧
    afterTimed true sampleController sampleUpdateStop (fun t => (t.tickers .poll).length == 1) = true ∧
    stopsEvery [.start, .listen true, .start, .listen true, .stop] = false ∧
    afterTimed true sampleController ([.start, .listen true, .start, .listen true, .stop].map .act)
      (fun t => (t.tickers .poll).map (·.stopped) == [false, true]) = true := by
  decide +kernel

/-! ### C149 -/

/-- C149: a poll ticker and a gc ticker are made by every Start that can listen, and a ticker of dmxUpdateLoop at most. -/
theorem tickers_le {discards : Bool} {P : Params} {as : List TimedAct} {t : Timed}
    (h : (Timed.init P).execs discards P as = some t) (q : Clockwork) : (t.tickers q).length ≤ t.sys.conns.length := by
  have := execs_count h q (by cases q <;> exact Nat.le_refl _)
  omega

theorem mul_le_of_le {a b : Nat} {c : Int} (h : a ≤ b) (hc : 0 ≤ c) : (a : Int) * c ≤ b * c :=
  Int.mul_le_mul_of_nonneg_right (by omega) hc

/-- C149: until any moment a controller has written at most one ArtPoll for every Start that could listen, and one for every three
seconds since it was made. -/
theorem C149_polls {discards : Bool} {P : Params} {as : List TimedAct} {t : Timed}
    (h : (Timed.init P).execs discards P as = some t) :
    (t.sys.wire.countP isArtPoll : Int) * 3000000000 ≤ t.sys.conns.length * (t.clock + 3000000000) := by
  have hs := C147_refines h
  have hr : Reach P t.sys := ⟨_, hs⟩
  obtain ⟨h1, _, h2⟩ := received_total h .poll (d := 3000000000) rfl
  have h3 := mul_le_of_le (tickers_le h .poll) h2
  have h4 := C143_exactly hs
  have h5 := wire_le hr isArtPoll
  rw [artpolls_total] at h4
  unfold wArtPoll at h4
  rw [received_polls] at h1
  have h6 : t.sys.wire.countP isArtPoll ≤ pollTicks P (Sys.init P) (programActs as) + t.sys.conns.length := by
    split at h4 <;> omega
  rw [Int.mul_add]
  omega

/-- The bound is reached. -/
example : afterTimed true sampleController sampleTickPoll (fun t => t.sys.wire.countP isArtPoll == 2 && t.clock == 3000000000 &&
    t.sys.conns.length == 1) = true := by decide +kernel

/-- C149: until any moment a controller has written at most one ArtDMX for a universe per period of the frame rate since it was made,
for every Start that could listen. -/
theorem C149_frames {discards : Bool} {P : Params} {as : List TimedAct} {t : Timed}
    (h : (Timed.init P).execs discards P as = some t) (a : Address) :
    (t.sys.wire.countP (isDmxFor a) : Int) * (1000000000 / P.maxFPS) ≤ t.sys.conns.length * t.clock := by
  have hs := C147_refines h
  have hr : Reach P t.sys := ⟨_, hs⟩
  have hc : 0 ≤ t.clock := (received_total h .poll (d := 3000000000) rfl).2.2
  have hn : 0 ≤ (t.sys.conns.length : Int) * t.clock := Int.mul_nonneg (by omega) hc
  by_cases hm : 1 ≤ P.maxFPS ∧ P.maxFPS ≤ 1000000000
  · have hd := (C56_partial P.maxFPS).2 hm
    obtain ⟨h1, _, _⟩ := received_total h .update (d := 1000000000 / P.maxFPS) hd
    have h3 := mul_le_of_le (tickers_le h .update) hc
    obtain ⟨hcan, hp, _⟩ := C73_linearizable hr
    have h5 := wire_le hr (isDmxFor a)
    have h6 := dmx_for_conservation a hr
    unfold wDmxFor at h6
    have h7 := sent_le_ticks (inv_init P.maxFPS) t.sys.hist hcan a
    have h8 : (tickTimes t.sys.hist).length = t.sys.hist.countP isTick := by
      generalize t.sys.hist = l
      induction l with
      | nil => rfl
      | cons o l ih => cases o <;> simp [tickTimes, isTick, List.countP_cons, ih]
    have h9 : t.sys.emitted.countP (emAddress · = a) ≤ (sentFor (Ctrl.init P.maxFPS) t.sys.hist a).length := by
      unfold sentFor
      rw [← List.countP_eq_length_filter]
      exact hp.sublist.countP_le
    have h10 := execs_lock hs
    have h11 : (Sys.init P).hist.countP isTick + total wLock (Sys.init P).threads = 0 := rfl
    have h12 : t.sys.wire.countP (isDmxFor a) ≤ ticksReceived P .update (Sys.init P) (programActs as) := by omega
    have h13 := mul_le_of_le h12 (c := 1000000000 / P.maxFPS) (Int.ediv_nonneg (by omega) (by omega))
    omega
  · refine Int.le_trans ?_ hn
    have : 1000000000 / P.maxFPS ≤ 0 := by
      by_cases h0 : P.maxFPS ≤ 0
      · exact Int.ediv_nonpos_of_nonneg_of_nonpos (by omega) h0
      · exact Int.le_of_eq (Int.ediv_eq_zero_of_lt (by omega) (by omega))
    exact Int.mul_nonpos_of_nonneg_of_nonpos (by omega) this

/-- The bound is reached. -/
example : sampleController.maxFPS = 1000 ∧ afterTimed true sampleController sampleFrameTick (fun t =>
    t.sys.wire.countP (isDmxFor ⟨0, 1⟩) == 1 && t.clock == 1000000 && t.sys.conns.length == 1) = true := by
  constructor <;> decide +kernel

/-- C149: from any moment to any later one, the ticks that are received for a variable are at most three more than periods have
passed, for every Start that could listen. -/
theorem C149_window {discards : Bool} {P : Params} {pre as : List TimedAct} {t t' : Timed}
    (hp : (Timed.init P).execs discards P pre = some t) (h : t.execs discards P as = some t') :
    (∀ q, q ≠ .update → (ticksReceived P q t.sys (programActs as) : Int) * 3000000000 ≤
      t'.sys.conns.length * (t'.clock - t.clock + 9000000000)) ∧
    (1 ≤ P.maxFPS → P.maxFPS ≤ 1000000000 →
      (ticksReceived P .update t.sys (programActs as) : Int) * (1000000000 / P.maxFPS) ≤
        t'.sys.conns.length * (t'.clock - t.clock + 3 * (1000000000 / P.maxFPS))) := by
  have hall : (Timed.init P).execs discards P (pre ++ as) = some t' := by rw [timed_append, hp]; exact h
  have key : ∀ q d, Rated P q d → (ticksReceived P q t.sys (programActs as) : Int) * d ≤
      t'.sys.conns.length * (t'.clock - t.clock + 3 * d) := by
    intro q d hd
    have hw := (received_total hp q hd).2.1
    have h1 := received_since h q hd hw
    have h2 := (received_le h q hd hw (f := worthSince t.clock d) fun c hc => since_grows (rated_pos hd) hc).2.2
    have := rated_pos hd
    exact Int.le_trans h1 (mul_le_of_le (tickers_le hall q) (by omega))
  refine ⟨fun q hq => ?_, fun h1 h2 => key .update _ ((C56_partial P.maxFPS).2 ⟨h1, h2⟩)⟩
  cases q with
  | poll => exact key .poll 3000000000 rfl
  | gc => exact key .gc 3000000000 rfl
  | update => exact absurd rfl hq

/-- A tick waits for 2.9 s and is received, and the next one a tenth of a second later. -/
example : afterTimed true sampleController (sampleStart.map .act ++ List.replicate 5 (.act (.run 3 .next)) ++
      [.pass 3000000000, .fire .poll 0, .pass 2900000000]) (fun t =>
    let as : List TimedAct := [.act (.run 3 .tick)] ++ List.replicate 5 (.act (.run 3 .next)) ++
      [.pass 100000000, .fire .poll 0, .act (.run 3 .tick)]
    t.clock == 5900000000 && (t.execs true sampleController as).any (fun t' => t'.clock == 6000000000) &&
      ticksReceived sampleController .poll t.sys (programActs as) == 2) = true := by
  decide +kernel

end Verif.Props
