import Verif.Lemmas.Ticker
import Verif.Lemmas.NetLive
import Verif.Props.Balance
import Verif.Props.Follow
import Verif.Props.Traffic
/-
What the tickers of pollLoop lead to: C143 and C144.
-/
namespace Verif.Props
open Spec Packet Code Artnet Conc

/-! ### C143 -/

theorem artpolls_total (s : Sys) : (enqueued s).countP isArtPoll = total wArtPoll s.chans := by
  rw [enqueued]
  generalize s.chans = l
  induction l with
  | nil => rfl
  | cons a l ih => simp only [List.flatMap_cons, List.countP_append, total_cons, ← ih, wArtPoll]

theorem polls_along {P : Params} {as : List Act} {s s' : Sys} (hr : Reach P s) (h : s.execs P as = some s') :
    wPolls s' + (if P.controller then s.conns.length else 0) =
      wPolls s + pollTicks P s as + (if P.controller then s'.conns.length else 0) := by
  induction as generalizing s with
  | nil => cases h; rfl
  | cons a as ih =>
    simp only [Sys.execs] at h
    cases hx : s.exec P a with
    | none => rw [hx] at h; cases h
    | some s1 =>
      rw [hx] at h
      have h1 := exec_polls hr hx
      have h2 := ih (Reach.exec hr hx) h
      simp only [pollTicks, hx]
      omega

/-- C143: a controller puts one ArtPoll into sendCh for every Start that could listen and for every firing of the poll
ticker, and no other; a Node none. -/
theorem C143_exactly {P : Params} {as : List Act} {s : Sys} (h : (Sys.init P).execs P as = some s) :
    (enqueued s).countP isArtPoll + s.threads.countP Thread.polling =
      pollTicks P (Sys.init P) as + (if P.controller then s.conns.length else 0) := by
  have h1 := polls_along ⟨[], rfl⟩ h
  rw [artpolls_total, countP_total Thread.polling wPolling (fun _ => rfl)]
  simp only [wPolls] at h1
  have h2 : (Sys.init P).conns.length = 0 := rfl
  have h3 : total wArtPoll (Sys.init P).chans + total wPolling (Sys.init P).threads = 0 := rfl
  rw [h2, h3] at h1
  simpa using h1

/-- C143: the ArtPolls are all the same and go to the broadcast address of the controller. -/
theorem C143_form {P : Params} {s : Sys} (h : Reach P s) : ∀ p ∈ enqueued s, isArtPoll p = true →
    p = ⟨P.ctrlBroadcast, artPollBytes⟩ := by
  intro p hp hq
  obtain ⟨c, hc, hp⟩ := List.mem_flatMap.mp hp
  cases enq_sent h c hc p hp with
  | poll _ hp =>
    have : pollBytes = artPollBytes := by decide
    rw [hp, this]
  | dmx e he hp =>
    subst hp
    rw [dmx_not_poll ((emitted_dmx h).2 e he)] at hq
    cases hq
  | reply me hm hp =>
    subst hp
    rw [(me_not hm _).1] at hq
    cases hq

theorem ticks_succ {P : Params} (e : Exec P) (n : Nat) :
    e.pollTicks (n + 1) = e.pollTicks n + if pollFires (e.state n) (e.act n) then 1 else 0 := by
  simp only [Exec.pollTicks, List.range_succ, List.countP_append, List.countP_singleton]

theorem polls_exec {P : Params} (e : Exec P) (n : Nat) :
    wPolls (e.state n) = wPolls (e.state 0) + e.pollTicks n := by
  obtain ⟨g, hg⟩ := e.running
  induction n with
  | zero => rfl
  | succ n ih =>
    have h1 := exec_polls (e.reach n).reach (e.next n)
    have h2 : (e.state (n + 1)).conns = (e.state n).conns := by
      rcases e.cases' n with ⟨i, t, c, ht, _, hrun⟩ | ⟨_, l, _, h⟩
      · revert hrun
        generalize e.state (n + 1) = s'
        intro hrun
        cases hrun <;> rfl
      · rw [h]
    rw [h2] at h1
    rw [ticks_succ]
    omega

/-- pollLoop puts the ArtPoll into sendCh. -/
theorem poll_put {P : Params} (e : Exec P) (hf : e.Fair) {g : Nat} (hg : ∀ n, Running g (e.state n)) {n i : Nat} {t : Thread}
    (ht : (e.state n).threads[i]? = some t) (hp : t.polling = true) :
    ∃ m, n ≤ m ∧ total wArtPoll (e.state m).chans < total wArtPoll (e.state (m + 1)).chans := by
  have put : ∀ {n g0 : Nat}, (e.state n).threads[i]? = some (.plSend g0) →
      ∃ m, n ≤ m ∧ total wArtPoll (e.state m).chans < total wArtPoll (e.state (m + 1)).chans := by
    intro n g0 ht
    obtain ⟨m, c, hm, ht', _, hrun⟩ := e.goes_on hf hg (.inr (.inr (by nofun))) ht rfl
    refine ⟨m, hm, ?_⟩
    have ha := e.alive (m + 1)
    revert hrun ha
    generalize e.state (m + 1) = s'
    intro hrun ha
    cases hrun with
    | panic => cases ha
    | move m _ => cases m
    | @pushSend _ _ _ _ p ch k hch _ =>
      cases k
      have h1 := total_set wArtPoll hch { ch with
        send := ch.send ++ [⟨P.ctrlBroadcast, pollBytes⟩], enq := ch.enq ++ [⟨P.ctrlBroadcast, pollBytes⟩] }
      have h2 := poll_is_poll P.ctrlBroadcast
      simp only [wArtPoll, List.countP_append, List.countP_singleton, h2, if_pos] at h1
      simp only [Sys.goto, Sys.setCh]
      omega
  cases t <;> first | (cases hp; done) | exact put ht | skip
  obtain ⟨m, c, hm, ht', _, hrun⟩ := e.goes_on hf hg (.inr (.inr (by nofun))) ht rfl
  have h1 : ∃ g', (e.state (m + 1)).threads[i]? = some (.plSend g') := by
    have hlt := (List.getElem?_eq_some_iff.mp ht').1
    have ha := e.alive (m + 1)
    revert hrun ha
    generalize e.state (m + 1) = s'
    intro hrun ha
    cases hrun with
    | panic => cases ha
    | move m _ => cases m with
      | plSendTop => exact ⟨_, List.getElem?_set_self hlt⟩
    | pushSend k => cases k
  obtain ⟨g', h1⟩ := h1
  obtain ⟨m', hm', h⟩ := put h1
  exact ⟨m', by omega, h⟩

/-- C143: within a session, if the scheduler is fair and no write fails, every firing of the poll ticker leads to an ArtPoll
on the wire: for every moment there is a later one by which as many have been written as the ticker has fired. -/
theorem C143_written {P : Params} (e : Exec P) (hf : e.Fair) (hw : e.writes) (n : Nat) : ∃ m, n ≤ m ∧
    (e.state 0).wire.countP isArtPoll + e.pollTicks n ≤ (e.state m).wire.countP isArtPoll := by
  obtain ⟨g, hg⟩ := e.running
  have hadd : ∀ {a b : Nat}, a ≤ b → ∃ l, (Exec.line g (e.state b)) = Exec.line g (e.state a) ++ l ∧
      total wArtPoll (e.state b).chans = total wArtPoll (e.state a).chans + l.countP isArtPoll := by
    intro a b h
    obtain ⟨l, h1, h2⟩ := e.line_adds hw hg h
    refine ⟨l, h1, ?_⟩
    obtain ⟨ca, hca⟩ := e.chan hg a
    obtain ⟨cb, hcb⟩ := e.chan hg b
    rw [queue_eq hca, queue_eq hcb] at h2
    rw [total_newest (hg a) _ hca, total_newest (hg b) _ hcb, e.old hg a, e.old hg b]
    simp only [wArtPoll, h2, List.countP_append]
    omega
  obtain ⟨m, hm, h⟩ := count_up (D := fun n => total wArtPoll (e.state n).chans)
    (W := fun n => total wPolling (e.state n).threads)
    (fun n => by
      have h1 := polls_exec e n
      have h2 := polls_exec e (n + 1)
      have h3 := ticks_succ e n
      simp only [wPolls] at h1 h2
      omega)
    (fun n hpos => by
      have hex : ∃ t ∈ (e.state n).threads, t.polling = true := by
        apply Classical.byContradiction
        intro hno
        have : (e.state n).threads.countP Thread.polling = 0 :=
          List.countP_eq_zero.mpr fun t ht hp => hno ⟨t, ht, hp⟩
        rw [countP_total Thread.polling wPolling (fun _ => rfl)] at this
        omega
      obtain ⟨t, ht, hp⟩ := hex
      obtain ⟨i, hi⟩ := List.mem_iff_getElem?.mp ht
      obtain ⟨m, hm, h⟩ := poll_put e hf hg hi hp
      obtain ⟨l, _, hl⟩ := hadd hm
      exact ⟨m + 1, by omega, by omega⟩) n
  obtain ⟨l, h1, h2⟩ := hadd (Nat.zero_le m)
  obtain ⟨m', hm', h3⟩ := e.wire_all hf hw hg m
  refine ⟨m', by omega, ?_⟩
  have h4 := h3.sublist.countP_le (p := isArtPoll)
  have h5 := polls_exec e n
  rw [h1] at h4
  simp only [Exec.line, List.countP_append] at h4
  simp only [wPolls] at h5
  omega

/-- The poll ticker fires in a session of a controller: two ArtPolls are put into sendCh, one for Start and one for the
firing. -/
def samplePollTick : List Act := sampleStart ++ [.run 3 .next, .run 3 .next, .run 3 .next, .run 3 .next, .run 3 .next,
  .run 3 .tick, .run 3 .next, .run 3 .next]

example : after sampleController samplePollTick (fun s => (enqueued s).countP isArtPoll == 2 && s.conns.length == 1 &&
    pollTicks sampleController (Sys.init sampleController) samplePollTick == 1) = true := by decide +kernel

/-- The controller has discovered a node, and pollLoop waits. -/
def sampleWaiting : List Act := sampleDiscover ++ [.run 3 .next]

/-- The goroutines go on until they wait, after `k` polls. -/
def sampleRest (k : Nat) : List Act :=
  [.run 3 .next, .run 4 .next, .run 4 .next, .run 5 .next, .run 1 .next, .run 0 .next] ++
    List.replicate (4 * k) (.run 0 .next) ++ List.replicate (8 * k) (.run 2 .next)

/-- A fair execution in which the poll ticker fires and an ArtPoll is written. -/
example : ∃ e : Exec sampleController, e.Fair ∧ e.writes ∧ e.pollTicks 1 = 1 ∧
    (e.state 0).wire.countP isArtPoll = 0 := by
  obtain ⟨e, hf, hw, ha, h0, _, _⟩ := fair_along (P := sampleController)
    (f := fun s => s.threads[3]? == some (.plWait 0 0) && s.wire.countP isArtPoll == 0)
    (g := fun _ => true) (k := fun _ => true) (pre := sampleWaiting)
    (as := [.run 3 .tick, .run 3 .next, .run 3 .next, .run 3 .next, .run 3 .next] ++ sampleRest 2) (by decide +kernel)
  simp only [Bool.and_eq_true, beq_iff_eq] at h0
  refine ⟨e, hf, hw, ?_, h0.2⟩
  have : e.act 0 = .run 3 .tick := by rw [ha]; rfl
  simp [Exec.pollTicks, List.range_succ, this, pollFires, h0.1]

/-! ### C144 -/

/-- C144: within a session, if the scheduler is fair, every firing of the gc ticker leads to a pass of gcNode over the
tables. -/
theorem C144_collected {P : Params} (e : Exec P) (hf : e.Fair) {n i g k : Nat}
    (ht : (e.state n).threads[i]? = some (.plWait g k)) (ha : e.act n = .run i .gcTick) :
    ∃ m clock, n < m ∧ e.act m = .run i (.clock clock) ∧ (e.state m).lock = false ∧
      (e.state (m + 1)).lock = false ∧ (e.state (m + 1)).ctrl = (e.state m).ctrl.gcNode clock ∧
      (e.state (m + 1)).hist = (e.state m).hist ++ [.gc clock] := by
  obtain ⟨γ, hg⟩ := e.running
  have hlt := (List.getElem?_eq_some_iff.mp ht).1
  have h1 : (e.state (n + 1)).threads[i]? = some .plGc := by
    have hx := e.next n
    rw [ha, exec_run (e.alive n) ht] at hx
    simp only [Sys.step, Option.some.injEq] at hx
    rw [← hx]
    simp [Sys.goto, hlt]
  obtain ⟨m, c, hm, ht', ha', _⟩ := e.goes_on hf hg (.inr (.inr (by nofun))) h1 rfl
  have hx := e.next m
  rw [ha', exec_run (e.alive m) ht'] at hx
  cases c <;> simp only [Sys.step] at hx <;> first | (cases hx; done) | skip
  split at hx
  · cases hx
  · rename_i hl
    have hl : (e.state m).lock = false := by simpa using hl
    have hx := (Option.some.inj hx).symm
    exact ⟨m, _, by omega, ha', hl, by rw [hx]; exact hl, by rw [hx]; rfl, by rw [hx]; rfl⟩

/-- C144: a node that was not heard for 7 s when the gc ticker fires, and is not heard again, is in the table no more from
some moment on, and nothing more is sent to its address. -/
theorem C144_forgotten {P : Params} (e : Exec P) (hf : e.Fair) {n i g k : Nat} (ip : Bytes)
    (ht : (e.state n).threads[i]? = some (.plWait g k)) (ha : e.act n = .run i .gcTick)
    (hc : ∀ m j clock, n ≤ m → e.act m = .run j (.clock clock) → Monotone clock ∧
      ∀ t, heardAt ip (e.state m).hist = some t → t + 7000000000 < clock 0)
    (hq : ∀ m, ∀ o ∈ (e.state m).hist.drop (e.state n).hist.length, ¬ RepliesFrom ip o) :
    ∃ m, n < m ∧ (∀ j, m ≤ j → (e.state j).lock = false → ∀ r ∈ (e.state j).ctrl.nodes, ipOf (e.state j).ctrl r ≠ ip) ∧
      ∀ j, ∀ x ∈ (e.state j).emitted.drop (e.state m).emitted.length, x.address.ip ≠ ip := by
  obtain ⟨γ, hg⟩ := e.running
  obtain ⟨m, clock, hm, ham, hl, hl', hctrl, hhist⟩ := C144_collected e hf ht ha
  obtain ⟨h1, h2⟩ := hc m i clock (Nat.le_of_lt hm) ham
  obtain ⟨a1, _, a3⟩ := C73_linearizable (e.reach m).reach
  have a3 := a3 hl
  have key : ∀ j, m + 1 ≤ j → (e.state j).lock = false →
      (∀ r ∈ (e.state j).ctrl.nodes, ipOf (e.state j).ctrl r ≠ ip) ∧
      ∀ x ∈ (e.state j).emitted.drop (e.state (m + 1)).emitted.length, x.address.ip ≠ ip := by
    intro j hj hlj
    obtain ⟨os, b1, b2, b3, b4⟩ := runs_between e hj hl' hlj
    have hn : ∀ o ∈ os, ¬ RepliesFrom ip o := by
      intro o ho
      refine hq j o ?_
      obtain ⟨l, hl⟩ := e.hist_mono (n := n) (m := m + 1) (by omega)
      rw [b1, ← hl, List.append_assoc, List.drop_left]
      exact List.mem_append_right _ ho
    have hd : ((Ctrl.init P.maxFPS).run (e.state m).hist).1 = (e.state m).ctrl := by rw [a3]
    have c45 := C45_silent_node_forgotten P.maxFPS (e.state m).hist a1 ip clock h1 h2 os
      (by rw [hd, ← hctrl]; exact b2) hn
    simp only [hd, ← hctrl] at c45
    rw [b3] at c45
    refine ⟨c45.1, ?_⟩
    rw [b4, List.drop_left]
    exact c45.2
  refine ⟨m + 1, by omega, fun j hj hlj => (key j hj hlj).1, fun j x hx => ?_⟩
  obtain ⟨j', hj', hlj'⟩ := e.lock_free hf hg (max j (m + 1))
  obtain ⟨l, h5⟩ := e.emits hg (n := j) (m := j') (by omega)
  obtain ⟨_, h5, _⟩ := h5
  refine (key j' (by omega) hlj').2 x ?_
  rw [h5]
  by_cases hle : (e.state (m + 1)).emitted.length ≤ (e.state j).emitted.length
  · rw [List.drop_append_of_le_length hle]
    exact List.mem_append_left _ hx
  · rw [List.drop_eq_nil_of_le (by omega)] at hx
    cases hx

/-- Whether gcNode reads the clock. -/
def readsClock : Act → Bool
  | .run _ (.clock _) => true
  | _ => false

/-- A fair execution in which the gc ticker fires 8 s after the only announcement of a node. -/
example : ∃ e : Exec sampleController, e.Fair ∧ (e.state 0).threads[3]? = some (.plWait 0 0) ∧
    e.act 0 = .run 3 .gcTick ∧
    (∀ m j clock, 0 ≤ m → e.act m = .run j (.clock clock) → Monotone clock ∧
      ∀ t, heardAt ipA.val (e.state m).hist = some t → t + 7000000000 < clock 0) ∧
    (∀ m, ∀ o ∈ (e.state m).hist.drop (e.state 0).hist.length, ¬ RepliesFrom ipA.val o) ∧
    ∃ r ∈ (e.state 0).ctrl.nodes, ipOf (e.state 0).ctrl r = ipA.val := by
  obtain ⟨e, hf, hw, ha, h0, h1, hk⟩ := fair_along (P := sampleController)
    (f := fun s => s.threads[3]? == some (.plWait 0 0) && s.hist.length == 2 &&
      s.ctrl.nodes.any fun r => ipOf s.ctrl r == ipA.val)
    (g := fun s => heardAt ipA.val s.hist == some 0)
    (k := fun s => (s.hist.drop 2).all fun o => match o with | .reply _ _ => false | _ => true) (pre := sampleWaiting)
    (as := [.run 3 .gcTick, .run 3 (.clock fun _ => 8 * second)] ++ sampleRest 1) (by decide +kernel)
  simp only [Bool.and_eq_true, beq_iff_eq, List.any_eq_true] at h0 h1
  refine ⟨e, hf, h0.1.1, by rw [ha]; rfl, ?_, ?_, h0.2⟩
  · intro m j clock _ hm
    rw [ha] at hm
    match m, hm with
    | 1, hm =>
      have : (fun _ => 8 * second) = clock := by
        have hm : Act.run 3 (.clock fun _ => 8 * second) = .run j (.clock clock) := hm
        cases hm; rfl
      subst this
      refine ⟨fun _ _ _ => Int.le_refl _, fun t ht => ?_⟩
      rw [h1] at ht
      cases ht
      decide
    | m + 2, hm =>
      exfalso
      have hall : ∀ a ∈ sampleRest 1, readsClock a = false := by decide
      have hm : (sampleRest 1)[m]?.getD nothing = .run j (.clock clock) := hm
      cases hs : (sampleRest 1)[m]? with
      | none => rw [hs] at hm; cases hm
      | some a =>
        rw [hs] at hm
        have := hall a (List.mem_of_getElem? hs)
        have hm : a = _ := hm
        rw [hm] at this
        cases this
  · intro m o ho
    rw [h0.1.2] at ho
    have := List.all_eq_true.mp (hk m) o ho
    cases o <;> first | (cases this; done) | exact id

end Verif.Props
