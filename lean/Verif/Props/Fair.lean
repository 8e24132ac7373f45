import Verif.Lemmas.FairSend
import Verif.Props.Deadlock
/-
What happens eventually, under fairness: C88 to C92.
-/
namespace Verif.Props
open Spec Packet Code Artnet Conc

/-! ### Fair executions exist -/

/-- No goroutine can go on by itself: each has returned, is in a read, or waits at a queue that is empty, or full. -/
def still (s : Sys) : Bool := s.threads.all fun t => match t with
  | .prWait g _ => s.chans[g]?.any fun ch => ch.poll.isEmpty && !ch.down
  | .slWait g => s.chans[g]?.any fun ch => ch.send.isEmpty && !ch.down
  | .rlWait g => s.chans[g]?.any fun ch => ch.recv.isEmpty && !ch.down
  | .plWait g k => (s.chans[g]?.any fun ch => ch.pollReply.isEmpty) && s.cdown[k]? == some false
  | .hReply g _ => s.chans[g]?.any fun ch => ch.pollReply.length == capacity
  | .duWait k => s.cdown[k]? == some false
  | .rdWait _ _ | .done => true
  | _ => false

theorem still_not_ready {P : Params} {s : Sys} (h : still s = true) (hcr : s.crashed = none) (i : Nat) (t : Thread) :
    ¬ s.ready P i t := by
  rintro ⟨ht, hrd, c, s', hq, hx⟩
  have h1 := List.all_eq_true.mp h t (List.mem_of_getElem? ht)
  rw [exec_run hcr ht] at hx
  split at h1
  · obtain ⟨ch, hc, h2⟩ := Option.any_eq_true .. |>.mp h1
    simp only [Bool.and_eq_true, List.isEmpty_iff, Bool.not_eq_true'] at h2
    cases c <;> simp [Sys.step, hc, h2.1, h2.2] at hx
  · obtain ⟨ch, hc, h2⟩ := Option.any_eq_true .. |>.mp h1
    simp only [Bool.and_eq_true, List.isEmpty_iff, Bool.not_eq_true'] at h2
    cases c <;> simp [Sys.step, hc, h2.1, h2.2] at hx
  · obtain ⟨ch, hc, h2⟩ := Option.any_eq_true .. |>.mp h1
    simp only [Bool.and_eq_true, List.isEmpty_iff, Bool.not_eq_true'] at h2
    cases c <;> simp [Sys.step, hc, h2.1, h2.2] at hx
  · simp only [Bool.and_eq_true, beq_iff_eq] at h1
    obtain ⟨ch, hc, h2⟩ := Option.any_eq_true .. |>.mp h1.1
    simp only [List.isEmpty_iff] at h2
    cases c <;> first | (cases hq; done) | simp [Sys.step, hc, h2, h1.2] at hx
  · obtain ⟨ch, hc, h2⟩ := Option.any_eq_true .. |>.mp h1
    simp only [beq_iff_eq] at h2
    cases c <;> simp [Sys.step, Sys.comm, hc, Chans.pushReply, h2] at hx
  · simp only [beq_iff_eq] at h1
    cases c <;> first | (cases hq; done) | simp [Sys.step, h1] at hx
  · exact hrd _ _ rfl
  · cases c <;> simp [Sys.step] at hx
  · cases h1

/-- The states of an execution that does the actions and then nothing any more. -/
def path (P : Params) : List Act → Sys → Nat → Sys
  | [], s, _ => s
  | _ :: _, s, 0 => s
  | a :: as, s, n + 1 => path P as ((s.exec P a).getD s) n

/-- A call of RegisterCallback, which has no effect within a session. -/
def nothing : Act := .register 0 (.user 0)

/-- Not a call of Start. -/
def noStart : Act → Bool
  | .start => false
  | _ => true

/-- The actions are possible, within one session, and in the end nothing can go on. -/
def settles (P : Params) : List Act → Sys → Bool
  | [], s => s.phase == .started && s.conns.getLast? == some true && s.crashed == none && s.control == .idle &&
      !s.shutdown && still s
  | a :: as, s => s.phase == .started && s.conns.getLast? == some true && noStart a &&
      (s.exec P a).any (settles P as)

theorem path_on {P : Params} {as : List Act} {s : Sys} (h : settles P as s = true) (n : Nat) : (path P as s n).on := by
  induction as generalizing s n with
  | nil =>
    simp only [settles, Bool.and_eq_true, beq_iff_eq] at h
    exact ⟨h.1.1.1.1.1, h.1.1.1.1.2⟩
  | cons a as ih =>
    simp only [settles, Bool.and_eq_true, beq_iff_eq] at h
    obtain ⟨⟨⟨h1, h2⟩, _⟩, h3⟩ := h
    cases n with
    | zero => exact ⟨h1, h2⟩
    | succ n =>
      obtain ⟨s1, hx, hs⟩ := Option.any_eq_true .. |>.mp h3
      simp only [path, hx, Option.getD_some]
      exact ih hs n

theorem path_next {P : Params} {as : List Act} {s : Sys} (h : settles P as s = true) (n : Nat) :
    (path P as s n).exec P (as[n]?.getD nothing) = some (path P as s (n + 1)) ∧ as[n]?.getD nothing ≠ .start := by
  induction as generalizing s n with
  | nil =>
    simp only [settles, Bool.and_eq_true, beq_iff_eq, Bool.not_eq_true'] at h
    refine ⟨?_, by simp [nothing]⟩
    simp only [path, List.getElem?_nil, Option.getD_none, nothing]
    unfold Sys.exec
    simp [h.1.1.1.2, h.1.1.2, h.1.2]
  | cons a as ih =>
    simp only [settles, Bool.and_eq_true, beq_iff_eq] at h
    obtain ⟨⟨_, h2⟩, h3⟩ := h
    obtain ⟨s1, hx, hs⟩ := Option.any_eq_true .. |>.mp h3
    cases n with
    | zero =>
      refine ⟨?_, by rintro rfl; cases h2⟩
      simp only [List.getElem?_cons_zero, Option.getD_some, path, hx]
      cases as <;> rfl
    | succ n =>
      simp only [List.getElem?_cons_succ, path, hx, Option.getD_some]
      exact ih hs n

theorem path_end {P : Params} {as : List Act} {s : Sys} (h : settles P as s = true) {n : Nat} (hn : as.length ≤ n) :
    (path P as s n).crashed = none ∧ still (path P as s n) = true := by
  induction as generalizing s n with
  | nil =>
    simp only [settles, Bool.and_eq_true, beq_iff_eq, Bool.not_eq_true'] at h
    exact ⟨h.1.1.1.2, h.2⟩
  | cons a as ih =>
    simp only [settles, Bool.and_eq_true] at h
    obtain ⟨s1, hx, hs⟩ := Option.any_eq_true .. |>.mp h.2
    cases n with
    | zero => cases hn
    | succ n =>
      simp only [path, hx, Option.getD_some]
      exact ih hs (Nat.le_of_succ_le_succ hn)

/-- No write fails. -/
def noFail : Act → Bool
  | .run _ .fail => false
  | _ => true

/-- An execution that does the actions and then nothing any more is fair, if then nothing can go on. -/
theorem fair_exists {P : Params} {as : List Act} {s : Sys} (hr : TidyReach P s) (h : settles P as s = true) :
    ∃ e : Exec P, e.Fair ∧ e.state = path P as s ∧ e.state 0 = s ∧ (as.all noFail = true → e.writes) ∧
      ∀ n, e.act n = as[n]?.getD nothing := by
  refine ⟨⟨path P as s, fun n => as[n]?.getD nothing, ?_, fun n => (path_next h n).1,
    fun n ha => absurd ha (path_next h n).2, path_on h⟩, ?_, rfl, ?_, ?_, fun _ => rfl⟩
  · cases as <;> exact hr
  · intro i t hrd
    obtain ⟨m, hm, hrd⟩ := hrd as.length
    obtain ⟨h1, h2⟩ := path_end h hm
    exact absurd hrd (still_not_ready h2 h1 i t)
  · cases as <;> rfl
  · intro hw n i p _ ha
    have ha : as[n]?.getD nothing = .run i .fail := ha
    cases hx : as[n]? with
    | none => simp only [hx] at ha; cases ha
    | some a =>
      simp only [hx, Option.getD_some] at ha
      have := List.all_eq_true.mp hw a (List.mem_of_getElem? hx)
      rw [ha] at this
      cases this

/-- The same, with a condition on the first state and one on the first and the last, to be evaluated. -/
theorem fair_after {P : Params} {pre as : List Act} {f : Sys → Bool} {g : Sys → Sys → Bool}
    (h : afterTidy P pre (fun s => f s && settles P as s && as.all noFail && (s.execs P as).any (g s)) = true) :
    ∃ e : Exec P, e.Fair ∧ e.writes ∧ f (e.state 0) = true ∧ ∃ n, ∀ m, n ≤ m → g (e.state 0) (e.state m) = true := by
  obtain ⟨s, hr, hs⟩ := afterTidy_reach h
  simp only [Bool.and_eq_true] at hs
  obtain ⟨⟨⟨h1, h2⟩, h3⟩, h4⟩ := hs
  obtain ⟨e, he, hst, h0, hw, hact⟩ := fair_exists hr h2
  refine ⟨e, he, hw h3, by rw [h0]; exact h1, as.length, fun m hm => ?_⟩
  rw [h0, hst]
  clear h1 h3 hst h0 hw he h hr hact
  generalize g s = g at h4 ⊢
  induction as generalizing s m with
  | nil => simpa [Sys.execs, path] using h4
  | cons a as ih =>
    simp only [settles, Bool.and_eq_true] at h2
    obtain ⟨s1, hx, hs⟩ := Option.any_eq_true .. |>.mp h2.2
    cases m with
    | zero => cases hm
    | succ m =>
      simp only [Sys.execs, hx] at h4
      simp only [path, hx, Option.getD_some]
      exact ih s1 hs m (Nat.le_of_succ_le_succ hm) h4

/-! ### C88 -/

/-- C88 as stated: under fairness every goroutine that is not at rest goes on. -/
def C88_statement : Prop := ∀ (P : Params) (e : Exec P), e.Fair → ∀ (n i : Nat) (t : Thread),
  (e.state n).threads[i]? = some t → t.resting = false → ∃ m, n ≤ m ∧ (e.state m).threads[i]? ≠ some t

/-- A Node with style StController: the eleventh goroutine that handles an ArtPollReply waits for ever. -/
theorem C88_false : ¬ C88_statement := by
  intro h
  have hw : afterTidy sampleLonely (sampleReplies ++ [.run 3 .next, .run 1 .next, .run 0 .next]) (fun s : Sys =>
      (match s.threads[14]? with | some (Thread.hReply 0 _) => true | _ => false) && settles sampleLonely [] s) = true := by
    decide +kernel
  obtain ⟨s, hr, hs⟩ := afterTidy_reach hw
  simp only [Bool.and_eq_true] at hs
  obtain ⟨e, he, hst, _⟩ := fair_exists hr hs.2
  have h14 := hs.1
  split at h14
  · rename_i p ht
    obtain ⟨m, _, hm⟩ := h _ e he 0 14 _ (by rw [hst]; exact ht) rfl
    exact hm (by rw [hst]; exact ht)
  · cases h14

/-- C88, restricted to Controllers and to Nodes of other styles: a goroutine that is not in a select, in a read or
returned stays where it is until it does its next step, and does it. -/
theorem C88_partial {P : Params} (hP : P.controller = true ∨ P.config.type ≠ StyleCode.stController) (e : Exec P)
    (hf : e.Fair) {n i : Nat} {t : Thread} (ht : (e.state n).threads[i]? = some t) (hw : t.resting = false) :
    ∃ m, n ≤ m ∧ (∀ k, n ≤ k → k ≤ m → (e.state k).threads[i]? = some t) ∧ (∃ c, e.act m = .run i c) ∧
      (e.state (m + 1)).threads[i]? ≠ some t := by
  obtain ⟨g, hg⟩ := e.running
  obtain ⟨m, hm, hk, c, ha⟩ := e.advance hf hg ht fun _ m _ =>
    e.served hf hg (hP.imp_right .inl) ht hw m
  have := hk m hm (Nat.le_refl _)
  exact ⟨m, hm, hk, ⟨c, ha⟩, run_ne this (e.step_run this ha) (e.alive _)⟩

/-- C88: every call of SendDMXToAddress returns, and has its effect. -/
theorem C88_call_returns {P : Params} (e : Exec P) (hf : e.Fair) {n i : Nat} {d : Arr 512} {a : Address}
    (ht : (e.state n).threads[i]? = some (.caller d a)) :
    ∃ m, n ≤ m ∧ (e.state (m + 1)).hist = (e.state m).hist ++ [.send d a] ∧
      (e.state (m + 1)).threads[i]? = some .done := by
  obtain ⟨g, hg⟩ := e.running
  obtain ⟨m, c, hm, hm', _, hrun⟩ := e.goes_on hf hg (.inr (.inr (by nofun))) ht rfl
  have hlt := (List.getElem?_eq_some_iff.mp hm').1
  have ha := e.alive (m + 1)
  refine ⟨m, hm, ?_⟩
  revert hrun ha
  generalize e.state (m + 1) = s'
  intro hrun ha
  cases hrun with
  | panic => cases ha
  | move m _ => cases m
  | pushSend k => cases k
  | sendDMX => exact ⟨rfl, List.getElem?_set_self hlt⟩

/-- The goroutines of a Controller after `sampleStart` go on until nothing is left to do: pollLoop broadcasts an ArtPoll
and polls the Controller itself, sendLoop writes the ArtPoll and the reply. -/
def sampleSettle : List Act :=
  [.run 3 .next, .run 3 .next, .run 3 .next, .run 3 .next, .run 3 .next, .run 4 .next, .run 4 .next, .run 5 .next,
    .run 1 .next, .run 0 .next, .run 0 .next, .run 0 .next, .run 0 .next, .run 0 .next,
    .run 2 .next, .run 2 .next, .run 2 .next, .run 2 .next, .run 2 .next, .run 2 .next, .run 2 .next, .run 2 .next]

/-- A fair execution in which a goroutine calls SendDMXToAddress while pollLoop has not sent its ArtPoll. -/
example : ∃ (e : Exec sampleController) (d : Arr 512) (a : Address), e.Fair ∧ e.writes ∧
    (e.state 0).threads[6]? = some (.caller d a) ∧ (e.state 0).threads[3]? = some .plSendTop := by
  obtain ⟨e, hf, hw, h, _⟩ := fair_after (P := sampleController) (f := fun s =>
      (match s.threads[6]? with | some (Thread.caller _ _) => true | _ => false) && s.threads[3]? == some .plSendTop)
    (g := fun _ _ => true) (pre := sampleStart ++ [.call fullOn ⟨0, 1⟩]) (as := sampleSettle ++ [.run 6 .next])
    (by decide +kernel)
  simp only [Bool.and_eq_true, beq_iff_eq] at h
  obtain ⟨h1, h2⟩ := h
  split at h1
  · rename_i d a ht; exact ⟨e, d, a, hf, hw, ht, h2⟩
  · cases h1

/-! ### C89 -/

/-- C89: what is under way between the reader and the call-backs is handed to its call-back, or dropped for want
of one. -/
theorem C89_handled {P : Params} (e : Exec P) (hf : e.Fair) (n : Nat) : ∃ m, n ≤ m ∧ ∀ x,
    (e.state n).finished.count x + ((e.state n).pending P).count x ≤ (e.state m).finished.count x := by
  obtain ⟨g, hg⟩ := e.running
  refine uniform (D := fun n => (e.state n).finished) (fun h x => e.fin_mono h x) fun x => ?_
  obtain ⟨K, hK⟩ := e.fin_sum hg x
  refine count_up (D := fun n => (e.state n).finished.count x) (W := fun n => ((e.state n).pending P).count x)
    (fun n => ?_) (fun n hpos => ?_) n
  · have h1 := hK n
    have h2 := hK (n + 1)
    have h3 := e.arrived_mono (n := n) (m := n + 1) (by omega)
    have h4 := (((h3.sublist.filter (fromOther P)).map trunc).filterMap decode).count_le x
    simp only [Exec.fin] at h1 h2
    omega
  · obtain ⟨m, hm, h⟩ := e.fin_pending hf hg x (List.count_pos_iff.mp hpos)
    exact ⟨m + 1, by omega, Nat.lt_of_le_of_lt (e.fin_mono hm x) h⟩

/-- C89: every decodable datagram that arrives from another host is handed to its call-back, or dropped for want of
one, each once. -/
theorem C89_arrivals {P : Params} (e : Exec P) (hf : e.Fair) (n : Nat) : ∃ m, n ≤ m ∧ ∀ x,
    (e.state 0).finished.count x + (e.arrivals n).count x ≤ (e.state m).finished.count x := by
  obtain ⟨g, hg⟩ := e.running
  obtain ⟨m, hm, h⟩ := C89_handled e hf n
  refine ⟨m, hm, fun x => Nat.le_trans ?_ (h x)⟩
  obtain ⟨K, hK⟩ := e.fin_sum hg x
  have h1 := hK 0
  have h2 := hK n
  obtain ⟨l, hl⟩ := e.arrived_mono (Nat.zero_le n)
  rw [← hl] at h2
  simp only [Exec.arrivals, ← hl, List.drop_left]
  simp only [Exec.fin, List.filter_append, List.map_append, List.filterMap_append, List.count_append] at h1 h2 ⊢
  omega

theorem handled_opcode {P : Params} {s : Sys} (h : Reach P s) {i : Nat} {x : AnyPacket}
    (ht : s.threads[i]? = some (.hStart x)) : x.getOpCode = opcodeFor x := by
  have h1 : x ∈ s.accepted.filterMap decode := by
    refine (C60_exactly_once h).mem_iff.mpr ?_
    simp only [List.mem_append]
    exact .inl (.inl (.inr (List.mem_flatMap.mpr ⟨_, List.mem_of_getElem? ht, List.mem_singleton.mpr rfl⟩)))
  obtain ⟨p, _, hd⟩ := List.mem_filterMap.mp h1
  simp only [decode] at hd
  split at hd
  · rename_i hu
    cases hd
    obtain ⟨e1, e2⟩ := C06_dispatch_fidelity _ _ hu
    exact e2.trans e1.symm
  · cases hd

/-- During a session the packets of an opcode go to the call-back registered for it. -/
theorem calls_finished {P : Params} (e : Exec P) {op : OpCode} {f : Handler}
    (hcb : (e.state 0).callbacks.get op = some f) (q : AnyPacket → Bool) (hq : ∀ x, q x = true → opcodeFor x = op) (n : Nat) :
    (e.state n).finished.countP q + (e.state 0).calls.countP (fun c => c.1 == f && q c.2) =
      (e.state n).calls.countP (fun c => c.1 == f && q c.2) + (e.state 0).finished.countP q := by
  obtain ⟨g, hg⟩ := e.running
  induction n with
  | zero => omega
  | succ n ih =>
    have hcn : (e.state n).callbacks.get op = some f := by rw [e.callbacks_const hg n]; exact hcb
    rcases e.cases' n with ⟨i, t, c, ht, _, hrun⟩ | ⟨_, l, _, h⟩
    · revert hrun
      generalize e.state (n + 1) = s'
      intro hrun
      cases hrun with
      | call hh =>
        rename_i x _ _ _
        have ho := handled_opcode (e.reach n).reach ht
        simp only [Sys.finished, Sys.goto, List.map_append, List.countP_append, List.map_cons, List.map_nil,
          List.countP_cons, List.countP_nil] at ih ⊢
        by_cases hx : q x = true
        · rw [ho, hq x hx, hcn] at hh
          cases hh
          simp only [hx, BEq.rfl, Bool.and_self, if_true]
          omega
        · simp only [hx, Bool.and_false, Bool.false_eq_true, if_false]
          omega
      | drop hh =>
        rename_i x
        have ho := handled_opcode (e.reach n).reach ht
        have hx : q x = false := by
          cases hx : q x with
          | false => rfl
          | true => rw [ho, hq x hx, hcn] at hh; cases hh
        simp only [Sys.finished, Sys.goto, List.countP_append, List.countP_cons, List.countP_nil, hx] at ih ⊢
        simp only [Bool.false_eq_true, if_false]
        omega
      | _ => exact ih
    · rw [h]; exact ih

/-- C89: if a call-back is registered for an opcode, it is called for every packet with that opcode that arrives from
another host. -/
theorem C89_called {P : Params} (e : Exec P) (hf : e.Fair) {op : OpCode} {f : Handler}
    (hcb : (e.state 0).callbacks.get op = some f) (n : Nat) : ∃ m, n ≤ m ∧ ∀ x, opcodeFor x = op →
      (e.state 0).calls.count (f, x) + (e.arrivals n).count x ≤ (e.state m).calls.count (f, x) := by
  obtain ⟨m, hm, h⟩ := C89_arrivals e hf n
  refine ⟨m, hm, fun x hx => ?_⟩
  have h1 := h x
  have h2 := calls_finished e hcb (· == x) (by intro y hy; rw [beq_iff_eq.mp hy]; exact hx) m
  have h3 : ∀ l : List (Handler × AnyPacket), l.countP (fun c => c.1 == f && c.2 == x) = l.count (f, x) :=
    fun l => List.countP_congr fun c _ => by
      rcases c with ⟨a, b⟩
      simp
  rw [h3, h3] at h2
  simp only [List.count] at h1 h2 ⊢
  omega

/-- The goroutines of a Node after `samplePollAnswered` go on until nothing is left to do. -/
def sampleSettleN : List Act := [.run 0 .next, .run 1 .next, .run 2 .next, .run 3 .next]

/-- A fair execution in which an ArtPoll is being handled at the beginning and another arrives. -/
example : ∃ e : Exec sampleNode, e.Fair ∧ e.writes ∧ (e.state 0).callbacks.get OpCode.opPoll = some .poll ∧
    ((e.state 0).pending sampleNode).countP isPoll = 1 ∧ ∃ n, (e.arrivals n).countP isPoll = 1 := by
  obtain ⟨e, hf, hw, h, n, hn⟩ := fair_after (P := sampleNode) (f := fun s =>
      s.callbacks.get OpCode.opPoll == some .poll && (s.pending sampleNode).countP isPoll == 1)
    (g := fun s s' => (((((s'.arrived.drop s.arrived.length).filter (fromOther sampleNode)).map trunc).filterMap
      decode).countP isPoll == 1)) (pre := samplePollAnswered.take 13)
    (as := sampleRead 3 ⟨[2, 0, 0, 3], 6454⟩ samplePoll ++ samplePollAnswered.drop 13 ++ [.run 5 .next, .run 5 .next,
      .run 5 .next, .run 0 .next, .run 0 .next, .run 0 .next, .run 0 .next, .run 2 .next, .run 2 .next, .run 2 .next, .run 2 .next] ++ sampleSettleN)
    (by decide +kernel)
  simp only [Bool.and_eq_true, beq_iff_eq] at h hn
  exact ⟨e, hf, hw, h.1, h.2, n, hn n (Nat.le_refl _)⟩

/-! ### C90 -/

/-- C90: what has been put into the sendCh of the session is taken by sendLoop, in order. -/
theorem C90_taken {P : Params} (e : Exec P) (hf : e.Fair) (n : Nat) :
    ∃ m, n ≤ m ∧ (e.state n).newest Chans.enq <+: (e.state m).newest Chans.taken := by
  obtain ⟨g, hg⟩ := e.running
  obtain ⟨m, hm, h⟩ := e.taken_all hf hg n
  exact ⟨m, hm, by rw [newest_eq (hg n), newest_eq (hg m)]; exact h⟩

/-- C90: if no write fails, what sendLoop holds and what is in sendCh is written, in order and without anything in
between. -/
theorem C90_written {P : Params} (e : Exec P) (hf : e.Fair) (hw : e.writes) (n : Nat) :
    ∃ m, n ≤ m ∧ (e.state n).wire ++ (e.state n).outgoing <+: (e.state m).wire := by
  obtain ⟨g, hg⟩ := e.running
  obtain ⟨m, hm, h⟩ := e.wire_all hf hw hg n
  refine ⟨m, hm, ?_⟩
  rw [Sys.outgoing, newest_eq (hg n), ← List.append_assoc]
  exact h

/-- A fair execution that begins with two datagrams to write. -/
example : ∃ e : Exec sampleController, e.Fair ∧ e.writes ∧ (e.state 0).outgoing.length = 2 ∧
    (e.state 0).wire = [] := by
  obtain ⟨e, hf, hw, h, _⟩ := fair_after (P := sampleController) (f := fun s => s.outgoing.length == 2 && s.wire.isEmpty)
    (g := fun _ _ => true) (pre := sampleStart ++ sampleSettle.take 16) (as := sampleSettle.drop 16) (by decide +kernel)
  simp only [Bool.and_eq_true, beq_iff_eq, List.isEmpty_iff] at h
  exact ⟨e, hf, hw, h.1, h.2⟩

/-! ### C91 -/

theorem enq_newest {P : Params} (e : Exec P) {g : Nat} (hg : ∀ n, Running g (e.state n)) (f : Payload → Bool) (n : Nat) :
    (enqueued (e.state n)).countP f = (((e.state 0).chans.take g).flatMap Chans.enq).countP f +
      ((e.state n).queue g Chans.enq).countP f := by
  obtain ⟨ch, hc⟩ := e.chan hg n
  have h1 := total_newest (hg n) (fun c => c.enq.countP f) hc
  rw [e.old hg n] at h1
  have h2 : ∀ l : List Chans, (l.flatMap Chans.enq).countP f = total (fun c => c.enq.countP f) l := by
    intro l
    induction l with
    | nil => rfl
    | cons a l ih => simp only [List.flatMap_cons, List.countP_append, total_cons, ih]
  rw [enqueued, h2, h2, queue_eq hc]
  exact h1

/-- C91: for every call of the built-in call-back for ArtPoll, and for every ArtPoll that pollLoop makes, a reply is
put into sendCh. -/
theorem C91_replies {P : Params} (e : Exec P) (hf : e.Fair) (n : Nat) : ∃ m, n ≤ m ∧
    (enqueued (e.state 0)).countP isReply + ((e.state n).calls.countP isPollCall + (e.state n).own) ≤
      (enqueued (e.state m)).countP isReply + ((e.state 0).calls.countP isPollCall + (e.state 0).own) := by
  obtain ⟨g, hg⟩ := e.running
  obtain ⟨m, hm, h⟩ := e.ans_all hf hg n
  refine ⟨m, hm, ?_⟩
  obtain ⟨K, hK⟩ := e.ans_sum hg
  have h1 := hK 0
  have h2 := hK n
  simp only [Exec.ans] at h1 h2 h
  simp only [enqueued]
  omega

/-- C91: if the built-in call-back is registered and no write fails, every ArtPoll that arrives from another host is
answered: at least as many ArtPollReply datagrams are written as ArtPoll packets arrive. -/
theorem C91_answered {P : Params} (e : Exec P) (hf : e.Fair) (hw : e.writes)
    (hcb : (e.state 0).callbacks.get OpCode.opPoll = some .poll) (n : Nat) : ∃ m, n ≤ m ∧
      (e.state 0).wire.countP isReply + (e.arrivals n).countP isPoll ≤ (e.state m).wire.countP isReply := by
  obtain ⟨g, hg⟩ := e.running
  obtain ⟨m1, hm1, h1⟩ := C89_arrivals e hf n
  have h1' : (e.state 0).finished.countP isPoll + (e.arrivals n).countP isPoll ≤ (e.state m1).finished.countP isPoll := by
    rw [← List.countP_append]
    exact countP_le_of_count_le _ fun x => by rw [List.count_append]; exact h1 x
  have h2 := calls_finished e hcb isPoll (by intro x hx; cases x <;> first | rfl | cases hx) m1
  have h3 : ∀ l : List (Handler × AnyPacket), l.countP (fun c => c.1 == .poll && isPoll c.2) = l.countP isPollCall :=
    fun l => List.countP_congr fun c _ => by
      rcases c with ⟨a, b⟩
      cases a <;> cases b <;> simp [isPoll, isPollCall]
  rw [h3, h3] at h2
  obtain ⟨m2, hm2, h4⟩ := C91_replies e hf m1
  have h5 := e.own_mono (Nat.zero_le m1)
  obtain ⟨m3, hm3, h6⟩ := e.wire_all hf hw hg m2
  refine ⟨m3, by omega, ?_⟩
  obtain ⟨l, h7, h8⟩ := e.line_adds hw hg (Nat.zero_le m2)
  have h9 : (Exec.line g (e.state m2)).countP isReply ≤ (e.state m3).wire.countP isReply := h6.sublist.countP_le
  rw [enq_newest e hg, enq_newest e hg, h8, List.countP_append] at h4
  rw [h7, List.countP_append] at h9
  have h10 : (e.state 0).wire.countP isReply ≤ (Exec.line g (e.state 0)).countP isReply := by
    simp only [Exec.line, List.countP_append]; omega
  omega

/-! ### C92 -/

/-- C92: in a Controller with the default style every ArtPollReply given to the built-in call-back is processed by
pollLoop. -/
theorem C92_processed {P : Params} (hC : P.controller = true) (hc : P.config.type = StyleCode.stController) (e : Exec P)
    (hf : e.Fair) (n : Nat) (p : ArtPollReply) : ∃ m, n ≤ m ∧
      (e.state 0).hist.countP (isReplyOp p) + (e.state n).calls.countP (isReplyCall p) ≤
        (e.state m).hist.countP (isReplyOp p) + (e.state 0).calls.countP (isReplyCall p) := by
  obtain ⟨g, hg⟩ := e.running
  obtain ⟨m, hm, h⟩ := e.proc_all hf hg p hC hc n
  refine ⟨m, hm, ?_⟩
  obtain ⟨K, hK⟩ := e.proc_sum hg p hc
  have h1 := hK 0
  have h2 := hK n
  simp only [Exec.proc] at h1 h2 h
  omega

/-- C92: every ArtPollReply that arrives from another host is processed. -/
theorem C92_arrivals {P : Params} (hC : P.controller = true) (hc : P.config.type = StyleCode.stController) (e : Exec P)
    (hf : e.Fair) (hcb : (e.state 0).callbacks.get OpCode.opPollReply = some .pollReply) (n : Nat) (p : ArtPollReply) :
    ∃ m, n ≤ m ∧ (e.state 0).hist.countP (isReplyOp p) + (e.arrivals n).count (.pollReply p) ≤
      (e.state m).hist.countP (isReplyOp p) := by
  obtain ⟨m1, hm1, h1⟩ := C89_called e hf hcb n
  obtain ⟨m2, hm2, h2⟩ := C92_processed hC hc e hf m1 p
  have h3 := h1 (.pollReply p) rfl
  refine ⟨m2, by omega, ?_⟩
  have h4 : ∀ l : List (Handler × AnyPacket), l.countP (isReplyCall p) = l.count (.pollReply, .pollReply p) := fun _ => rfl
  rw [h4, h4] at h2
  omega

/-- A fair execution in which an ArtPollReply arrives. -/
example : ∃ (e : Exec sampleController) (p : ArtPollReply), e.Fair ∧
    (e.state 0).callbacks.get OpCode.opPollReply = some .pollReply ∧
    ∃ n, (e.arrivals n).count (.pollReply p) = 1 := by
  obtain ⟨e, hf, hw, h, n, hn⟩ := fair_after (P := sampleController) (f := fun s =>
      s.callbacks.get OpCode.opPollReply == some .pollReply)
    (g := fun s s' => match (((s'.arrived.drop s.arrived.length).filter (fromOther sampleController)).map trunc).filterMap
      decode with | [.pollReply _] => true | _ => false)
    (pre := sampleStart) (as := sampleDiscover.drop 5 ++ [.run 3 .next] ++ sampleSettle.drop 5 ++ []) (by decide +kernel)
  simp only [beq_iff_eq] at h hn
  have := hn n (Nat.le_refl _)
  split at this
  · rename_i p hp
    exact ⟨e, p, hf, h, n, by rw [Exec.arrivals, hp, List.count_cons_self, List.count_nil]⟩
  · cases this

end Verif.Props
