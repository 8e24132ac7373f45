import Verif.Props.Lonely
import Verif.Props.Count
import Verif.Props.Send
import Verif.Props.Life
import Verif.Props.Linear
import Verif.Props.Connection
/-
Which systems have the properties C57, C71, C74, C87 and C112.
-/
namespace Verif.Props
open Spec Packet Code Artnet Conc

theorem valid_ok {P : Params} (h : ValidConfig P.config) : P.config.validate = .ok none := by
  obtain ⟨r, hr, hvr⟩ := C32_validate P.config
  rw [hr, hvr.mpr h]

theorem invalid_not {P : Params} (h : ¬ ValidConfig P.config) : P.config.validate ≠ .ok none := by
  intro h0
  obtain ⟨r, hr, hvr⟩ := C32_validate P.config
  rw [h0] at hr
  exact h (hvr.mp (Except.ok.inj hr).symm)

/-! ### C57 -/

/-- C57, which systems have the property: only those that cannot be started. -/
theorem C57_exact (P : Params) :
    (∀ (as : List Act) (s : Sys), (Sys.init P).execs P as = some s →
      ∀ o, s.callbacks.get o = (as.foldl (Registry.act P true) Registry.new).callback o) ↔ ¬ ValidConfig P.config := by
  constructor
  · intro h hv
    have hr := valid_ok hv
    have hx : ∃ s, (Sys.init P).execs P [.start, .listen false, .register OpCode.opDMX (.user 7)] = some s ∧
        s.callbacks = (Sys.init P).callbacks := by
      cases hc : P.controller <;>
        simp [Sys.execs, Sys.exec, Sys.init, hc, hr, Sys.resetTables, Sys.makeChannels]
    obtain ⟨s, hx, hs⟩ := hx
    have := h _ s hx OpCode.opDMX
    rw [hs] at this
    have h1 : (Sys.init P).callbacks.get OpCode.opDMX = none := rfl
    rw [h1] at this
    simp [Registry.act, hr] at this
  · intro hv as s hx o
    rw [(C57_partial P as s hx).1 o]
    have hn := invalid_not hv
    have key : ∀ (l : List Act) (r : Registry), r.running = false →
        l.foldl (Registry.act P false) r = l.foldl (Registry.act P true) r := by
      intro l
      induction l with
      | nil => intro r _; rfl
      | cons a l ih =>
        intro r hr
        have h1 : Registry.act P false r a = Registry.act P true r a ∧ (Registry.act P true r a).running = false := by
          have h2 : ({ r with running := false } : Registry) = r := by rw [← hr]
          cases a with
          | start =>
            have : ∀ b, Registry.act P b r .start = r := by
              intro b
              cases hcv : P.config.validate with
              | error => simp [Registry.act, hcv]
              | ok o =>
                cases o with
                | none => exact absurd hcv hn
                | some => simp [Registry.act, hcv]
            rw [this, this]
            exact ⟨rfl, hr⟩
          | listen ok => cases ok <;> simp [Registry.act, h2, hr]
          | register o h => simp [Registry.act, hr]
          | deregister o => simp [Registry.act, hr]
          | _ => exact ⟨rfl, by first | rfl | exact hr⟩
        rw [List.foldl_cons, List.foldl_cons, h1.1]
        exact ih _ h1.2
    rw [key as _ rfl]

example : ValidConfig sampleNode.config := ⟨by decide, by decide, fun i a b ha => by cases ha⟩

/-! ### C71 -/

theorem setOption_config (opts : List CtrlOption) (c : ControllerSetup) :
    (opts.foldl ControllerSetup.setOption c).cNode.config = c.cNode.config := by
  induction opts generalizing c with
  | nil => rfl
  | cons o opts ih => rw [List.foldl_cons, ih]; cases o <;> rfl

/-- C71, for which arguments of the option it holds: only for the address that is the default anyway. -/
theorem C71_exact (name ip : Bytes) (opts : List CtrlOption) (addr : UDPAddr) :
    (∀ s, Reach (Params.ofController (newController name ip (opts ++ [.broadcastAddr addr]))) s →
      ∀ p ∈ enqueued s, (byteAt p.data 9 = 0x20 ∨ byteAt p.data 9 = 0x21) → p.address = addr) ↔
    addr = ⟨[2, 255, 255, 255], 6454⟩ := by
  have hb : (Params.ofController (newController name ip (opts ++ [.broadcastAddr addr]))).broadcast =
      defaultBroadcastAddr := by
    show (newController name ip (opts ++ [.broadcastAddr addr])).cNode.broadcastAddr = _
    rw [newController, setOption_node]
    rfl
  constructor
  · intro h
    have hv : (Params.ofController (newController name ip (opts ++ [.broadcastAddr addr]))).config.validate = .ok none := by
      refine valid_ok ?_
      show ValidConfig (newController name ip (opts ++ [.broadcastAddr addr])).cNode.config
      rw [newController, setOption_config]
      exact ⟨Nat.zero_le _, Nat.zero_le _, fun i a b ha => by cases ha⟩
    have hc : (Params.ofController (newController name ip (opts ++ [.broadcastAddr addr]))).controller = true := rfl
    generalize Params.ofController (newController name ip (opts ++ [.broadcastAddr addr])) = P at h hb hv hc
    have hx : ∃ s, (Sys.init P).execs P ctrlPolled = some s ∧
        (⟨P.broadcast, pollReplyImage (announced P.config)⟩ : Payload) ∈ enqueued s := by
      simp [ctrlPolled, Sys.execs, Sys.exec, Sys.init, hc, hv, Sys.resetTables, Sys.makeChannels, Params.goroutines,
        Sys.step, Sys.goto, me_eq, Chans.make, Sys.comm, Chans.pushSend, Chans.pushPoll, capacity, enqueued]
    obtain ⟨s, hx, hm⟩ := hx
    have hr := me_is_reply (me_eq P) P.broadcast
    simp only [isReply, Bool.and_eq_true, beq_iff_eq] at hr
    have := h s ⟨_, hx⟩ _ hm (.inr hr.2)
    rw [← this]
    exact hb
  · rintro rfl s hr p hp hk
    obtain ⟨c, hcm, hpe⟩ := List.mem_flatMap.mp hp
    cases enq_sent hr c hcm p hpe with
    | reply me hm he => rw [he]; exact hb
    | poll _ he =>
      refine (C71_partial name ip opts _ s hr p hp).1 ?_
      rw [he]
      show byteAt pollBytes 9 = _
      decide +kernel
    | dmx e he hpe =>
      subst hpe
      have := byteAt_of_take ((emitted_dmx hr).2 e he).2.1 (show 9 < 12 by decide)
      simp only [this] at hk
      exact absurd hk (by decide)

/-! ### C74 -/

/-- C74, which systems have the property: plain Nodes, and systems that cannot be started. -/
theorem C74_exact (P : Params) :
    (∀ s s' : Sys, Reach P s → s.exec P (.listen true) = some s' → s'.results = s.results ++ [true]) ↔
    (P.controller = false ∨ ¬ ValidConfig P.config) := by
  constructor
  · intro h
    refine Classical.byContradiction fun hn => ?_
    simp only [not_or, Bool.not_eq_false, Classical.not_not] at hn
    have hr := valid_ok hn.2
    have hx : ∃ s s', (Sys.init P).execs P [.start, .listen false, .start] = some s ∧
        s.exec P (.listen true) = some s' ∧ s'.results = s.results ++ [false] := by
      simp [Sys.execs, Sys.exec, Sys.init, hn.1, hr, Sys.resetTables, Sys.makeChannels]
    obtain ⟨s, s', hx, hl, hs⟩ := hx
    have := h s s' ⟨_, hx⟩ hl
    rw [hs] at this
    simp at this
  · rintro hP s s' ⟨as, hr⟩ hl
    rcases hP with hP | hP
    · exact (C74_partial hr hl).1 (.inl hP)
    · have := (unstarted hP ⟨as, hr⟩).1
      have hcr := (exec_Step hl).1
      unfold Sys.exec at hl
      simp [hcr, this] at hl

example : sampleController.controller = true ∧ ValidConfig sampleController.config :=
  ⟨rfl, by decide, by decide, fun i a b ha => by cases ha⟩

/-! ### C87 -/

theorem node_emits {P : Params} {s : Sys} (h : Reach P s) (hP : P.controller = false) : s.emitted = [] := by
  refine Reach.induct (P := P) (I := fun s => s.emitted = []) rfl ?_ h
  intro s s' hr ih _ hst
  cases hst with
  | pushDmx ht hg => 
    have := (threads_ok hr _ (List.mem_of_getElem? ht)).2
    rw [hP] at this
    exact absurd (this rfl) (by decide)
  | startPanic | startFail | start =>
    simp only [Sys.reset, Sys.panic, Sys.resetTables, Sys.makeChannels]
    split <;> exact ih
  | _ => exact ih

/-- What a plain Node puts into sendCh. -/
theorem node_sends {P : Params} {s : Sys} (h : Reach P s) (hP : P.controller = false) (p : Payload) (hp : p ∈ enqueued s) :
    p = ⟨P.broadcast, pollReplyImage (announced P.config)⟩ := by
  obtain ⟨c, hc, hp⟩ := List.mem_flatMap.mp hp
  cases enq_sent h c hc p hp with
  | reply me hm he =>
    have : pollReplyImage (announced P.config) = me := Except.ok.inj ((me_eq P).symm.trans hm)
    rw [this]
    exact he
  | poll hc => rw [hP] at hc; cases hc
  | dmx e he => rw [node_emits h hP] at he; cases he

/-- C87, which systems have the property: plain Nodes (all their datagrams are the same), and systems that cannot be
started. -/
theorem C87_exact (P : Params) :
    (∀ s : Sys, Reach P s → s.wire.Sublist (enqueued s)) ↔ (P.controller = false ∨ ¬ ValidConfig P.config) := by
  constructor
  · intro h
    refine Classical.byContradiction fun hn => ?_
    simp only [not_or, Bool.not_eq_false, Classical.not_not] at hn
    have hr := valid_ok hn.2
    have hx : ∃ s, (Sys.init P).execs P sampleTwoSenders = some s ∧
        s.wire = [⟨P.broadcast, pollReplyImage (announced P.config)⟩, ⟨P.ctrlBroadcast, pollBytes⟩] ∧
        enqueued s = [⟨P.ctrlBroadcast, pollBytes⟩, ⟨P.broadcast, pollReplyImage (announced P.config)⟩] := by
      simp [sampleTwoSenders, Sys.execs, Sys.exec, Sys.init, hn.1, hr, Sys.resetTables, Sys.makeChannels, Params.goroutines,
        Sys.step, Sys.goto, me_eq, Chans.make, Sys.comm, Chans.pushSend, Chans.pushPoll, capacity, Sys.closeConn, enqueued]
    obtain ⟨s, hx, hw, he⟩ := hx
    have h1 := h s ⟨_, hx⟩
    rw [hw, he] at h1
    have h2 := me_is_reply (me_eq P) P.broadcast
    generalize (⟨P.broadcast, pollReplyImage (announced P.config)⟩ : Payload) = x at h1 h2
    have h3 : isReply ⟨P.ctrlBroadcast, pollBytes⟩ = false := by
      show (byteAt pollBytes 9 == _) = _
      decide +kernel
    generalize (⟨P.ctrlBroadcast, pollBytes⟩ : Payload) = y at h1 h3
    have hxy : x ≠ y := by rintro rfl; rw [h2] at h3; cases h3
    have := h1.eq_of_length rfl
    exact hxy (List.cons.inj this).1
  · rintro hP s hr
    rcases hP with hP | hP
    · have h1 := C64_written hr ⟨P.broadcast, pollReplyImage (announced P.config)⟩
      have h2 : (s.chans.flatMap Chans.taken).Sublist (enqueued s) := by
        have hok := chans_ok hr
        simp only [enqueued]
        generalize s.chans = l at hok
        induction l with
        | nil => exact List.Sublist.refl _
        | cons a l ih =>
          rw [List.flatMap_cons, List.flatMap_cons, (hok a List.mem_cons_self).fifo]
          exact (List.sublist_append_left _ _).append (ih fun c hc => hok c (List.mem_cons_of_mem _ hc))
      refine List.Sublist.trans ?_ h2
      have h3 : ∀ p ∈ s.chans.flatMap Chans.taken, p = ⟨P.broadcast, pollReplyImage (announced P.config)⟩ :=
        fun p hp => node_sends hr hP p (h2.subset hp)
      have h4 : ∀ p ∈ s.wire, p = ⟨P.broadcast, pollReplyImage (announced P.config)⟩ := by
        intro p hp
        have := C64_written hr p
        exact h3 p (List.count_pos_iff.mp (Nat.lt_of_lt_of_le (List.count_pos_iff.mpr hp) this))
      have e3 := List.eq_replicate_iff.mpr ⟨rfl, h3⟩
      have e4 := List.eq_replicate_iff.mpr ⟨rfl, h4⟩
      rw [e3, e4, List.count_replicate_self, List.count_replicate_self] at h1
      rw [e3, e4]
      exact List.replicate_sublist_replicate _ |>.mpr h1
    · have hw : s.wire = [] := by
        refine Classical.byContradiction fun hne => hP (wire_valid hr hne)
      rw [hw]
      exact List.nil_sublist _

/-! ### C112 -/

/-- C112, which systems have the property: only those that cannot be started. -/
theorem C112_exact (P : Params) :
    (∀ s : Sys, Reach P s → ∀ k, s.connection = some k → s.conns[k]? = some true) ↔ ¬ ValidConfig P.config := by
  constructor
  · intro h hv
    have hr := valid_ok hv
    have hx : ∃ s, (Sys.init P).execs P [.start, .listen true, .stop, .stopStep, .stopStep] = some s ∧
        s.connection = some 0 ∧ s.conns = [false] := by
      cases hc : P.controller <;>
        simp [Sys.execs, Sys.exec, Sys.init, hc, hr, Sys.resetTables, Sys.makeChannels, Sys.closeConn, Chans.make,
          Sys.connection]
    obtain ⟨s, hx, hk, hs⟩ := hx
    have := h s ⟨_, hx⟩ 0 hk
    rw [hs] at this
    cases this
  · intro hv s hr k hk
    have : s.conn = none := by
      refine Reach.induct (P := P) (I := fun s => s.conn = none) rfl ?_ hr
      intro s s' hr ih _ hst
      cases hst with
      | listen hc => exact absurd hc (unstarted hv hr).1
      | startPanic | startFail | start =>
        simp only [Sys.reset, Sys.panic, Sys.resetTables, Sys.makeChannels]
        split <;> exact ih
      | _ => exact ih
    rw [show s.connection = s.conn from rfl, this] at hk
    cases hk

end Verif.Props
