import Verif.Props.Receive
import Verif.Lemmas.ConcWire
/-
Properties of the sending side, over all executions: C62, C64, C70, C71.
-/
namespace Verif.Props
open Spec Packet Code Artnet Conc

/-! ### C62 -/

/-- Everything that was ever put into a sendCh. -/
def enqueued (s : Sys) : List Payload := s.chans.flatMap Chans.enq

theorem countP_le_of_count_le [BEq α] [LawfulBEq α] (f : α → Bool) {l m : List α}
    (h : ∀ a, l.count a ≤ m.count a) : l.countP f ≤ m.countP f := by
  induction l generalizing m with
  | nil => simp
  | cons a l ih =>
    have ha : a ∈ m := by
      have := h a
      rw [List.count_cons_self] at this
      exact List.count_pos_iff.mp (by omega)
    have hp := List.perm_cons_erase ha
    rw [hp.countP_eq, List.countP_cons, List.countP_cons]
    have := ih (m := m.erase a) (fun b => by
      have h1 := h b
      rw [hp.count_eq b, List.count_cons, List.count_cons] at h1
      omega)
    omega

/-- C62: at any moment the ArtPollReply datagrams ever queued are no more than the calls of the built-in
call-back for ArtPoll plus the polls of the controller to itself. -/
theorem C62_one_per_poll {P : Params} {s : Sys} (h : Reach P s) :
    (enqueued s).countP isReply ≤ s.calls.countP isPollCall + s.own := by
  rw [← poll_conservation h]
  have : (enqueued s).countP isReply ≤ total wPollC s.chans := by
    simp only [enqueued]
    generalize s.chans = l
    induction l with
    | nil => simp
    | cons a l ih =>
      rw [List.flatMap_cons, List.countP_append, total_cons]
      have : a.enq.countP isReply ≤ wPollC a := Nat.le_add_left _ _
      omega
  omega

/-- C62: so are those written to the network. -/
theorem C62_written {P : Params} {s : Sys} (h : Reach P s) :
    s.wire.countP isReply ≤ (enqueued s).countP isReply := by
  apply countP_le_of_count_le
  intro x
  have h1 := wire_taken h x
  have h2 : total (wTaken x) s.chans ≤ (enqueued s).count x := by
    rw [enqueued, count_flatMap_total]
    apply total_le_total
    intro c hc
    rw [(chans_ok h c hc).fifo, List.count_append, wTaken]
    omega
  omega

/-- Whether a packet is an ArtPoll. -/
def isPoll : AnyPacket → Bool
  | .poll _ => true
  | _ => false

/-- C62: the calls of the built-in call-back are no more than the ArtPoll datagrams that arrived from
other hosts. -/
theorem C62_polls_received {P : Params} {s : Sys} (h : Reach P s) :
    s.calls.countP isPollCall ≤
      (((s.arrived.filter (fromOther P)).map trunc).filterMap decode).countP isPoll := by
  have h1 : s.calls.countP isPollCall ≤ (s.calls.map (·.2)).countP isPoll := by
    rw [List.countP_map]
    apply List.countP_mono_left
    rintro ⟨f, p⟩ _ hf
    unfold isPollCall at hf
    split at hf
    · rename_i he; cases he; rfl
    · cases hf
  exact Nat.le_trans h1 (countP_le_of_count_le _ (C60_no_duplicates h))

/-- C62: a plain node has no polls of its own. -/
theorem C62_node_own {P : Params} (hp : P.controller = false) {s : Sys} (h : Reach P s) : s.own = 0 := by
  refine Reach.induct (P := P) (I := fun s => s.own = 0) rfl ?_ h
  intro s s' hr ih _ hst
  cases hst with
  | pushOwn ht =>
    have := (threads_ok hr _ (List.mem_of_getElem? ht)).2 rfl
    rw [hp] at this; cases this
  | startPanic | startFail | start =>
    simp only [Sys.reset, Sys.panic, Sys.makeChannels, Sys.resetTables]
    split <;> exact ih
  | _ => exact ih

/-- C62: every ArtPollReply datagram queued goes to the node's broadcast address and is the wire image of
the reply for the configuration. -/
theorem C62_form {P : Params} {s : Sys} (h : Reach P s) : ∀ p ∈ enqueued s, isReply p = true →
    p.address = P.broadcast ∧ ∃ r, artPollReplyFromConfig P.config = .ok r ∧ p.data = pollReplyImage r := by
  intro p hp hr
  obtain ⟨c, hc, hp⟩ := List.mem_flatMap.mp hp
  cases enq_sent h c hc p hp with
  | reply me hm he =>
    subst he
    refine ⟨rfl, announced P.config, artPollReplyFromConfig_eq _, ?_⟩
    exact (Except.ok.inj ((me_eq P).symm.trans hm)).symm
  | poll _ he => subst he; rw [poll_not_reply] at hr; cases hr
  | dmx e he hpe =>
    subst hpe
    rw [dmx_not_reply ((emitted_dmx h).2 e he)] at hr; cases hr

/-- C62: everything written was queued before. -/
theorem C62_wire_queued {P : Params} {s : Sys} (h : Reach P s) : ∀ p ∈ s.wire, p ∈ enqueued s := by
  intro p hp
  have h1 := wire_taken h p
  have h2 : total (wTaken p) s.chans ≤ (enqueued s).count p := by
    rw [enqueued, count_flatMap_total]
    apply total_le_total
    intro c hc
    rw [(chans_ok h c hc).fifo, List.count_append, wTaken]
    omega
  exact List.count_pos_iff.mp (Nat.lt_of_lt_of_le (List.count_pos_iff.mpr hp) (by omega))

/-- A poll from another host is answered: the reply is queued and then written. -/
def samplePollAnswered : List Act :=
  sampleStart ++ sampleRead 3 ⟨[2, 0, 0, 2], 6454⟩ samplePoll ++
    [.run 4 .next, .run 4 .next, .run 4 .next, .run 0 .next, .run 0 .next, .run 0 .next, .run 0 .next,
     .run 2 .next, .run 2 .next, .run 2 .next]

example : after sampleNode samplePollAnswered (fun s => s.wire.countP isReply == 1 &&
    (enqueued s).countP isReply == 1 && s.calls.countP isPollCall == 1) = true := by
  decide +kernel

/-! ### C64 -/

/-- C64: what was taken from a sendCh followed by what is in it is what was put into it. -/
theorem C64_order {P : Params} {s : Sys} (h : Reach P s) :
    ∀ c ∈ s.chans, c.enq = c.taken ++ c.send := fun c hc => (chans_ok h c hc).fifo

/-- C64: no datagram is written more often than it was taken. -/
theorem C64_written {P : Params} {s : Sys} (h : Reach P s) (x : Payload) :
    s.wire.count x ≤ (s.chans.flatMap Chans.taken).count x := by
  have := wire_taken h x
  rw [count_flatMap_total]
  exact Nat.le_trans (Nat.le_add_right _ _) this

/-! ### C87 -/

/-- C87 as stated: the datagrams on the wire are among those put into sendCh, in the same order. -/
def C87_statement : Prop := ∀ (P : Params) (s : Sys), Reach P s → s.wire.Sublist (enqueued s)

/-- Stop and Start again before sendLoop (2) has returned: it goes on beside the new one (7). The ArtPoll is taken
by the old one, the ArtPollReply by the new one, which is faster. -/
def sampleTwoSenders : List Act := [.start, .listen true, .stop, .stopStep, .stopStep, .stopStep, .start, .listen true,
  .run 8 .next, .run 8 .next, .run 8 .next, .run 8 .next,
  .run 5 .next, .run 5 .next, .run 5 .next, .run 5 .next, .run 5 .next,
  .run 2 .next, .run 2 .next, .run 7 .next, .run 7 .next, .run 7 .next, .run 7 .next, .run 2 .next, .run 2 .next]

theorem C87_false : ¬ C87_statement := by
  intro h
  have hw : after sampleController sampleTwoSenders (fun s => !(s.wire.isSublist (enqueued s))) = true := by
    decide +kernel
  obtain ⟨s, hr, _, hf⟩ := after_reach hw
  rw [List.isSublist_iff_sublist.mpr (h _ s hr)] at hf
  cases hf

/-- C87 as far as it holds: when every Start waits for the goroutines of the session before. -/
theorem C87_partial {P : Params} {s : Sys} (h : TidyReach P s) : s.wire.Sublist (enqueued s) := by
  have h2 := wire_order h
  have h3 : (s.chans.flatMap Chans.taken).Sublist (enqueued s) := by
    have hok := chans_ok h.reach
    simp only [enqueued]
    generalize s.chans = l at hok
    induction l with
    | nil => exact List.Sublist.refl _
    | cons a l ih =>
      rw [List.flatMap_cons, List.flatMap_cons, (hok a List.mem_cons_self).fifo]
      exact (List.sublist_append_left _ _).append (ih fun c hc => hok c (List.mem_cons_of_mem _ hc))
  exact ((List.sublist_append_left _ _).trans h2).trans h3

/-- In particular in the first session. -/
theorem C87_first {P : Params} {s : Sys} (h : Reach P s) (h1 : s.chans.length ≤ 1) : s.wire.Sublist (enqueued s) :=
  C87_partial (first_tidy h h1)

/-- A datagram is written in the first session, and one in the second. -/
example : after sampleNode samplePollAnswered (fun s => s.chans.length == 1 && s.wire.length == 1) = true ∧
    afterTidy sampleController (sampleStart ++ [.run 3 .next, .run 3 .next, .run 2 .next, .run 2 .next, .run 2 .next,
        .run 2 .next] ++ sampleStopC.take 11 ++ sampleStopC.drop 13 ++ [.start, .listen true,
        .run 9 .next, .run 9 .next, .run 8 .next, .run 8 .next, .run 8 .next, .run 8 .next])
      (fun s => s.chans.length == 2 && s.wire.length == 2) = true := by
  decide +kernel

/-! ### C70 -/

/-- C70: no queue ever holds more than 10 elements. -/
theorem C70_capacity {P : Params} {s : Sys} (h : Reach P s) : ∀ c ∈ s.chans,
    c.send.length ≤ 10 ∧ c.recv.length ≤ 10 ∧ c.poll.length ≤ 10 ∧ c.pollReply.length ≤ 10 :=
  fun c hc => ⟨(chans_ok h c hc).send, (chans_ok h c hc).recv, (chans_ok h c hc).poll, (chans_ok h c hc).reply⟩

/-- The reader reads `n` empty datagrams and puts them into recvCh. -/
def sampleFill (n : Nat) : List Act := (List.replicate n
  [.run 3 .next, .run 3 (.read ⟨[2, 0, 0, 2], 6454⟩ []), .run 3 .next, .run 3 .next, .run 3 .next]).flatten

/-- The bound is reached, and then the reader has to wait. -/
example : after sampleNode (sampleStart ++ sampleFill 10)
      (fun s => s.chans.all fun c => c.recv.length == 10) = true ∧
    after sampleNode (sampleStart ++ sampleFill 11) (fun _ => true) = false := by
  constructor <;> decide +kernel

/-! ### C71 -/

/-- C71 as stated: whatever a controller made with the option BroadcastAddr puts into its send queue, if it
is an ArtPoll (opcode 0x2000) or an ArtPollReply (opcode 0x2100), goes to that address. -/
def C71_statement : Prop := ∀ (name ip : Bytes) (opts : List CtrlOption) (addr : UDPAddr) (s : Sys),
  Reach (Params.ofController (newController name ip (opts ++ [.broadcastAddr addr]))) s →
  ∀ p ∈ enqueued s, (byteAt p.data 9 = 0x20 ∨ byteAt p.data 9 = 0x21) → p.address = addr

/-- A controller with broadcast address 10.255.255.255. -/
def ctrlElsewhere : Params :=
  Params.ofController (newController [0x63] [10, 0, 0, 1] ([] ++ [.broadcastAddr ⟨[10, 255, 255, 255], 6454⟩]))

/-- pollLoop sends the first ArtPoll and polls the controller itself, which replies. -/
def ctrlPolled : List Act := [.start, .listen true, .run 0 .next, .run 0 .next,
  .run 3 .next, .run 3 .next, .run 3 .next, .run 3 .next, .run 0 .next, .run 0 .next, .run 0 .next]

/-- The ArtPollReply of the controller goes to 2.255.255.255, the address of the built-in node. -/
theorem C71_false : ¬ C71_statement := by
  intro h
  have h1 : after ctrlElsewhere ctrlPolled (fun s => (enqueued s).any fun p =>
      byteAt p.data 9 == 0x21 && p.address == ⟨[2, 255, 255, 255], 6454⟩) = true := by decide +kernel
  obtain ⟨s, hr, _, hs⟩ := after_reach h1
  rw [List.any_eq_true] at hs
  obtain ⟨p, hp, hq⟩ := hs
  rw [Bool.and_eq_true, beq_iff_eq, beq_iff_eq] at hq
  have := h _ _ [] _ s hr p hp (.inr hq.1)
  rw [hq.2] at this
  exact absurd this (by decide)

theorem setOption_node (opts : List CtrlOption) (c : ControllerSetup) :
    (opts.foldl ControllerSetup.setOption c).cNode.broadcastAddr = c.cNode.broadcastAddr := by
  induction opts generalizing c with
  | nil => rfl
  | cons o opts ih => rw [List.foldl_cons, ih]; cases o <;> rfl

/-- C71, the part that holds: the ArtPoll datagrams go to the configured address. Missing: the ArtPollReply
datagrams go to the default broadcast address, whatever the options. -/
theorem C71_partial (name ip : Bytes) (opts : List CtrlOption) (addr : UDPAddr) (s : Sys)
    (h : Reach (Params.ofController (newController name ip (opts ++ [.broadcastAddr addr]))) s) :
    ∀ p ∈ enqueued s, (byteAt p.data 9 = 0x20 → p.address = addr) ∧
      (isReply p = true → p.address = defaultBroadcastAddr) := by
  intro p hp
  have hb : (Params.ofController (newController name ip (opts ++ [.broadcastAddr addr]))).broadcast =
      defaultBroadcastAddr := by
    show (newController name ip (opts ++ [.broadcastAddr addr])).cNode.broadcastAddr = _
    rw [newController, setOption_node]
    rfl
  have hc : (Params.ofController (newController name ip (opts ++ [.broadcastAddr addr]))).ctrlBroadcast =
      addr := by
    show (newController name ip (opts ++ [.broadcastAddr addr])).broadcastAddr = _
    rw [newController, List.foldl_append]
    rfl
  refine ⟨?_, fun hr => ((C62_form h p hp hr).1).trans hb⟩
  intro h9
  obtain ⟨c, hcm, hp⟩ := List.mem_flatMap.mp hp
  cases enq_sent h c hcm p hp with
  | reply me hm he =>
    subst he
    have := me_is_reply hm (Params.ofController (newController name ip (opts ++ [.broadcastAddr addr]))).broadcast
    rw [isReply, h9] at this
    simp at this
  | poll _ he => subst he; exact hc
  | dmx e he hpe =>
    subst hpe
    have := byteAt_of_take ((emitted_dmx h).2 e he).2.1 (show 9 < 12 by decide)
    rw [h9] at this
    exact absurd this (by decide)

/-- Both kinds are among the queued datagrams of the sample. -/
example : after ctrlElsewhere ctrlPolled (fun s => (enqueued s).any (fun p => byteAt p.data 9 == 0x20) &&
    (enqueued s).any isReply) = true := by decide +kernel

end Verif.Props
