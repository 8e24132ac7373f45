import Verif.Props.Life
import Verif.Props.Stream
import Verif.Lemmas.ConcLin
import Verif.Lemmas.ConcProv
import Verif.Lemmas.Provenance
/-
Linearizability of the controller and where its datagrams come from: C73, C74, C76.
-/
namespace Verif.Props
open Spec Packet Code Artnet Conc

/-! ### C73 -/

/-- C73: the critical sections in the order in which the lock was taken (`hist`) form a possible sequential
history; what has been sent is the beginning of what this history sends; whenever the lock is free, the
tables and everything sent are those of the sequential controller. -/
theorem C73_linearizable {P : Params} {s : Sys} (h : Reach P s) :
    (Ctrl.init P.maxFPS).CanRun s.hist ∧
    s.emitted <+: ((Ctrl.init P.maxFPS).run s.hist).2 ∧
    (s.lock = false → (Ctrl.init P.maxFPS).run s.hist = (s.ctrl, s.emitted)) := by
  have hl := lin_inv h
  have hfree : s.lock = false → (Ctrl.init P.maxFPS).run s.hist = (s.ctrl, s.emitted) := by
    intro hf
    have hx := hl.free hf
    refine Prod.ext hx.state ?_
    rw [hx.sent]
    simp [finish]
  have hex : ∃ pend rest now, Lin P s pend rest now := by
    cases hf : s.lock with
    | false => exact ⟨_, _, _, hl.free hf⟩
    | true =>
      have h1 := hl.one
      rw [hf, if_pos rfl] at h1
      have : ∃ t ∈ s.threads, wHold t ≠ 0 := by
        refine Classical.byContradiction fun hn => ?_
        have h0 : ∀ t ∈ s.threads, wHold t ≤ (fun _ : Thread => 0) t := by
          intro t ht
          have : ¬ wHold t ≠ 0 := fun hx => hn ⟨t, ht, hx⟩
          simp only [Nat.le_zero]
          omega
        have h2 := total_le_total h0
        have h3 : total (fun _ : Thread => 0) s.threads = 0 := by
          generalize s.threads = l
          induction l with
          | nil => rfl
          | cons a l ih => simp [ih]
        omega
      obtain ⟨t, ht, hw⟩ := this
      obtain ⟨i, hi⟩ := List.mem_iff_getElem?.mp ht
      cases hh : holder t with
      | none => simp [wHold, hh] at hw
      | some x => exact ⟨_, _, _, hl.held i t x.1 x.2.1 x.2.2 hi hh⟩
  obtain ⟨pend, rest, now, hx⟩ := hex
  exact ⟨hx.can, ⟨_, hx.sent.symm⟩, hfree⟩

/-- C73: each critical section happens at one moment while its goroutine runs: a step adds at most one
operation, and a call of SendDMXToAddress that has returned is in the history. -/
theorem C73_calls {P : Params} {s s' : Sys} {i : Nat} {d : Arr 512} {a : Address}
    (ht : s.threads[i]? = some (.caller d a)) (he : s.exec P (.run i .next) = some s') :
    s.lock = false ∧ s'.hist = s.hist ++ [.send d a] ∧ s'.ctrl = s.ctrl.sendDMX d a ∧
      s'.threads[i]? = some .done := by
  have hcr := (exec_Step he).1
  have hlt := (List.getElem?_eq_some_iff.mp ht).1
  unfold Sys.exec at he
  rw [hcr, if_neg (by simp)] at he
  simp only [ht, Sys.step] at he
  split at he
  · cases he
  · rename_i hl
    cases he
    exact ⟨by simpa using hl, rfl, rfl, by simp [Sys.goto, hlt]⟩

/-- C39 and C40 under every schedule. -/
theorem C73_tables {P : Params} {s : Sys} (h : Reach P s) (hl : s.lock = false) :
    (s.ctrl.nodes.map (ipOf s.ctrl)).Nodup ∧
    ∀ a r, Routed s.ctrl a r → r ∈ s.ctrl.nodes ∧ a ∈ (s.ctrl.heap r).node.outputs := by
  obtain ⟨h1, _, h3⟩ := C73_linearizable h
  have h3 := congrArg Prod.fst (h3 hl)
  have ha := C39_one_per_ip P.maxFPS s.hist h1
  have hb := fun a r => (C40_routes_to_claimants P.maxFPS s.hist h1 a r).1
  rw [h3] at ha hb
  exact ⟨ha, hb⟩

/-- C50 under every schedule: the sequence numbers of what has been sent to one node so far. -/
theorem C73_sequence {P : Params} {s : Sys} (h : Reach P s) (r : Ref) :
    (s.emitted.filter (·.ref = r)).map emSequence =
      (List.range (s.emitted.filter (·.ref = r)).length).map fun i => UInt8.ofNat (i + 1) := by
  obtain ⟨h1, ⟨rest, h2⟩, _⟩ := C73_linearizable h
  have h50 := C50_sequence_increments P.maxFPS s.hist h1 r
  simp only at h50
  rw [← h2, List.filter_append] at h50
  generalize s.emitted.filter (·.ref = r) = es at *
  generalize rest.filter (·.ref = r) = fs at *
  have := congrArg (List.take es.length) h50
  rw [List.map_append, List.take_append_of_le_length (by simp), List.take_of_length_le (by simp),
    ← List.map_take, List.take_range] at this
  rw [this, List.length_append, Nat.min_eq_left (by omega)]

/-! ### C76 -/

/-- C76 for sequential histories: a datagram sent to a node goes to port 6454 of an address from which a
tracked reply came earlier, for a universe in that reply, and carries zeros or the data of an earlier call of
SendDMXToAddress for that universe. -/
theorem C76_nothing_invented (m : Int) (os : List Op) (h : (Ctrl.init m).CanRun os) (e : Emission)
    (he : e ∈ ((Ctrl.init m).run os).2) :
    ∃ pre post, os = pre ++ post ∧ IsDMX e ∧
      (∃ p now, .reply p now ∈ pre ∧ Tracked p ∧ emAddress e ∈ (configFromArtPollReply p).outputs ∧
        e.address = ⟨p.ipAddress.val, 6454⟩) ∧
      (emChannels e = List.replicate 512 0 ∨ ∃ d, .send d (emAddress e) ∈ pre ∧ emChannels e = d.val) := by
  obtain ⟨pre, order, now, post, h1, h2, h3, h4, h5, h6⟩ := C40_dmx_goes_to_claimant m os h e he
  refine ⟨pre, .tick order now :: post, h1, h3, ?_, ?_⟩
  · rw [h1, canRun_append] at h
    obtain ⟨p, t, ha, hb, hc⟩ := (provenance_init m pre h.1).1 e.ref h4
    rw [ipOf, hc] at h6
    rw [hc] at h5
    exact ⟨p, t, ha, hb, h5, by rw [h6, config_ip]⟩
  · rw [h1, canRun_append] at h
    have hs := (provenance_init m pre h.1).2
    have t := tick_spec ((inv_init m).run pre h.1) (now := now) h.2.1
    obtain ⟨_, _, _, h7⟩ := t.each e h2
    rw [h7, bufferAt]
    cases hg : ((((Ctrl.init m).run pre).1.heap e.ref).dmxBuffer.get (emAddress e)) with
    | none => exact .inl rfl
    | some b =>
      rcases hs _ _ _ hg with h8 | h8
      · left
        show b.data.val = _
        rw [h8]; rfl
      · exact .inr ⟨_, h8, rfl⟩

/-- C76: everything that a node or controller writes to the network, under every schedule: its own
announcement, to its broadcast address; the ArtPoll of a controller; or ArtDMX, to an address contained in an
ArtPollReply that was received from another host, for a universe announced in it, with zeros or with the data
of a call of SendDMXToAddress for that universe. -/
theorem C76_wire {P : Params} {as : List Act} {s : Sys} (h : (Sys.init P).execs P as = some s) :
    ∀ p ∈ s.wire,
      (p = ⟨P.broadcast, pollReplyImage (announced P.config)⟩) ∨
      (P.controller = true ∧ p = ⟨P.ctrlBroadcast, pollBytes⟩) ∨
      (∃ e, p = ⟨e.address, e.data⟩ ∧ IsDMX e ∧
        (∃ x ∈ s.arrived, fromOther P x = true ∧ ∃ q, decode (trunc x) = some (.pollReply q) ∧ Tracked q ∧
          e.address = ⟨q.ipAddress.val, 6454⟩ ∧ emAddress e ∈ (configFromArtPollReply q).outputs) ∧
        (emChannels e = List.replicate 512 0 ∨
          ∃ d, .call d (emAddress e) ∈ as ∧ emChannels e = d.val)) := by
  intro p hp
  have hr : Reach P s := ⟨as, h⟩
  cases wire_sent hr p hp with
  | reply me hm hp =>
    rw [me_eq] at hm
    rw [hp, ← Except.ok.inj hm]
    exact .inl rfl
  | poll hc hp => exact .inr (.inl ⟨hc, hp⟩)
  | dmx e he hp =>
    refine .inr (.inr ⟨e, hp, ?_⟩)
    obtain ⟨h1, ⟨rest, h2⟩, _⟩ := C73_linearizable hr
    have he' : e ∈ ((Ctrl.init P.maxFPS).run s.hist).2 := by
      rw [← h2]; exact List.mem_append_left _ he
    obtain ⟨pre, post, hpre, hd, ⟨q, now, ha, hb, hc, hdd⟩, hdata⟩ :=
      C76_nothing_invented P.maxFPS s.hist h1 e he'
    have hsub : ∀ o ∈ pre, o ∈ s.hist := fun o ho => by rw [hpre]; exact List.mem_append_left _ ho
    refine ⟨hd, ?_, ?_⟩
    · have hcall := (replies_called hr).2.2 q now (hsub _ ha)
      have hmem : AnyPacket.pollReply q ∈
          ((s.arrived.filter (fromOther P)).map trunc).filterMap decode := by
        have h3 := C60_no_duplicates hr (.pollReply q)
        have h4 : 0 < (s.calls.map (·.2)).count (.pollReply q) :=
          List.count_pos_iff.mpr (List.mem_map.mpr ⟨_, hcall, rfl⟩)
        exact List.count_pos_iff.mp (by omega)
      obtain ⟨y, hy, hyd⟩ := List.mem_filterMap.mp hmem
      obtain ⟨x, hx, rfl⟩ := List.mem_map.mp hy
      obtain ⟨hx1, hx2⟩ := List.mem_filter.mp hx
      exact ⟨x, hx1, hx2, q, hyd, hb, hdd, hc⟩
    · rcases hdata with hz | ⟨d, hs, hv⟩
      · exact .inl hz
      · exact .inr ⟨d, (sends_called h).2 _ _ (hsub _ hs), hv⟩

/-- The controller discovers a node at 10.0.0.1 with output universe 1: reader, call-back, pollLoop. -/
def sampleDiscover : List Act :=
  sampleStart ++ sampleRead 5 ⟨ipA.val, 6454⟩ (pollReplyImage { replyOf ipA 1 with port := 6454 }) ++
    [.run 6 .next, .run 6 .next, .run 6 .next, .run 3 .next, .run 3 .next, .run 3 .next, .run 3 .next,
      .run 3 .next, .run 3 .next, .run 3 (.at 0)]

/-- One tick of the update loop with the universes in `l`, up to the first datagram. -/
def sampleTick (l : List Address) : List Act :=
  [.run 4 .next, .run 4 .next, .run 4 .tick, .run 4 (.order l second), .run 4 .next, .run 4 .next,
    .run 4 .next]

/-- Discovery, a call of SendDMXToAddress and a tick: the ArtPoll and an ArtDMX with the data are written. -/
example : after sampleController (sampleDiscover ++ [.call fullOn ⟨0, 1⟩, .run 7 .next] ++ sampleTick [⟨0, 1⟩] ++
      [.run 2 .next, .run 2 .next, .run 2 .next, .run 2 .next, .run 2 .next, .run 2 .next, .run 2 .next])
    (fun s => s.wire.length == 2 && s.hist.length == 4 && s.lock &&
      s.wire[1]?.any fun p => p.address == ⟨ipA.val, 6454⟩ && p.data.drop 18 == fullOn.val) = true := by
  decide +kernel
/-! ### C74 -/

/-- C74 as stated: Start reports success if it could listen. -/
def C74_statement : Prop := ∀ (P : Params) (s s' : Sys), Reach P s → s.exec P (.listen true) = some s' →
  s'.results = s.results ++ [true]

/-- A controller whose first Start could not listen reports that error also when it has been started. -/
theorem C74_false : ¬ C74_statement := by
  intro h
  have h1 : after sampleController [.start, .listen false, .start]
      (fun s => (s.exec sampleController (.listen true)).any fun s' => s'.results == [false, false] &&
        s.results == [false] && s'.threads.length == 5) = true := by decide +kernel
  obtain ⟨s, hr, _, hs⟩ := after_reach h1
  rw [Option.any_eq_true] at hs
  obtain ⟨s', he, hs⟩ := hs
  simp only [Bool.and_eq_true, beq_iff_eq] at hs
  have := h _ s s' hr he
  rw [hs.1.1, hs.1.2] at this
  cases this

theorem shutdownErr_iff {P : Params} {as : List Act} {s : Sys} (h : (Sys.init P).execs P as = some s) :
    s.shutdownErr = true ↔ .listen false ∈ as := by
  refine execs_induct (P := P) (I := fun as s => s.shutdownErr = true ↔ .listen false ∈ as) ?_ ?_ h
  · simp [Sys.init]
  intro as s b s' _ ih he
  have same : b ≠ .listen false → s'.shutdownErr = s.shutdownErr →
      (s'.shutdownErr = true ↔ Act.listen false ∈ as ++ [b]) := by
    intro hb hs
    rw [hs, ih, List.mem_append, List.mem_singleton]
    exact ⟨.inl, fun hx => hx.elim id fun hx => absurd hx.symm hb⟩
  unfold Sys.exec at he
  split at he
  · cases he
  cases b with
  | run i c =>
    dsimp only at he
    split at he
    · cases he
    · exact same nofun (step_frame he).shutdownErr
  | listen ok =>
    dsimp only at he
    split at he
    · cases he
    · split at he
      · rename_i hok
        cases he
        exact same (by intro hx; cases hx; cases hok) rfl
      · rename_i hok
        have : ok = false := by simpa using hok
        subst this
        cases he
        simp
  | start | stop | stopStep | register | deregister | call =>
    dsimp only at he
    repeat' split at he
    all_goals first
      | (cases he; done)
      | (cases he; exact same nofun rfl)

/-- C74, the part that holds: a Node, or a Controller for which listening has never failed, reports success.
Missing: any other controller reports failure although it has started. -/
theorem C74_partial {P : Params} {as : List Act} {s s' : Sys} (h : (Sys.init P).execs P as = some s)
    (he : s.exec P (.listen true) = some s') :
    ((P.controller = false ∨ ∀ a ∈ as, a ≠ .listen false) → s'.results = s.results ++ [true]) ∧
    (P.controller = true → .listen false ∈ as → s'.results = s.results ++ [false]) := by
  have hi := shutdownErr_iff h
  unfold Sys.exec at he
  split at he
  · cases he
  dsimp only at he
  split at he
  · cases he
  rw [if_pos rfl] at he
  cases he
  constructor
  · rintro (hc | hn)
    · simp [hc]
    · have : s.shutdownErr = false := by
        cases hs : s.shutdownErr with
        | false => rfl
        | true => exact absurd rfl (hn _ (hi.mp hs))
      simp [this]
  · intro hc hm
    simp [hc, hi.mpr hm]

example : after sampleController [.start] (fun s => (s.exec sampleController (.listen true)).any fun s' =>
    s'.results == [true]) = true := by decide +kernel

end Verif.Props
