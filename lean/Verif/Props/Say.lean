import Verif.Lemmas.SayNodes
import Verif.Props.Send
/-
C146: the log agrees with what happened.
-/
namespace Verif.Props
open Spec Packet Code Artnet Conc

/-- C146: what the log says about datagrams and packets is what happened to them, in the same order: written with this
destination and size, accepted from this source with this size, not decoded from this source with these contents, decoded
without a call-back for it. -/
theorem C146_traffic {P : Params} {s : Sys} {as : List Act} (h : (Sys.init P).execs P as = some s) :
    ((Sys.init P).log P as).filterMap Line.sent? = s.wire.map (fun p => (p.address, p.data.length)) ∧
    ((Sys.init P).log P as).filterMap Line.received? = s.accepted.map (fun p => (p.address, p.data.length)) ∧
    ((Sys.init P).log P as).filterMap Line.unparsed? = s.rejected.map (fun p => (p.address.ip, p.data)) ∧
    ((Sys.init P).log P as).filterMap Line.unhandled? = s.dropped := by
  have := log_told h
  exact ⟨this.wire.symm, this.accepted.symm, this.rejected.symm, this.dropped.symm⟩

/-- Every entry of the log is written by an action. -/
theorem log_mem {P : Params} {x : Line} : ∀ {as : List Act} {s : Sys}, Reach P s → x ∈ s.log P as →
    ∃ s1 s2 a, Reach P s1 ∧ s1.exec P a = some s2 ∧ x ∈ s1.lines P a
  | [], _, _, h => by cases h
  | a :: as, s, hr, h => by
    unfold Sys.log at h
    split at h
    · cases h
    · rename_i s1 h1
      rcases List.mem_append.mp h with h | h
      · exact ⟨s, s1, a, hr, h1, h⟩
      · exact log_mem (Reach.exec hr h1) h

/-- An entry of a goroutine. -/
theorem lines_step {P : Params} {s : Sys} {a : Act} {x : Line} (h : x ∈ s.lines P a) :
    (∃ i c t, a = .run i c ∧ s.threads[i]? = some t ∧ x ∈ s.stepLines P t c) ∨
    (∃ ip st, x = .started ip st) ∨ x = .listenFailed ∨ x = .closeFailed ∨ (∃ o, x = .registration o) ∨ ∃ b, x = .call b := by
  cases a with
  | run i c =>
    simp only [Sys.lines] at h
    split at h
    · cases h
    · rename_i t ht
      exact .inl ⟨i, c, t, rfl, ht, h⟩
  | _ =>
    simp only [Sys.lines] at h
    repeat' split at h
    all_goals first
    | (cases h; done)
    | (cases List.mem_singleton.mp h; simp)

/-- C146: the error in the log is the one that decoding the datagram gives. -/
theorem C146_error {P : Params} {as : List Act} {ip d : Bytes} {e : Err}
    (h : .unparsed ip d e ∈ (Sys.init P).log P as) : ∃ q, unmarshal d = .ok (q, some e) := by
  obtain ⟨s1, s2, a, _, _, hx⟩ := log_mem (Reach.init P) h
  rcases lines_step hx with ⟨i, c, t, rfl, ht, hx⟩ | ⟨_, _, hx⟩ | hx | hx | ⟨_, hx⟩ | ⟨_, hx⟩
  · unfold Sys.stepLines at hx
    split at hx
    all_goals first
    | (cases hx; done)
    | (cases List.mem_singleton.mp hx; done)
    | skip
    · repeat' split at hx
      all_goals cases hx
      all_goals rename_i hx; cases hx
    · split at hx
      · rename_i q e' hu
        cases List.mem_singleton.mp hx
        exact ⟨q, hu⟩
      · cases hx
    · repeat' split at hx
      all_goals cases hx
      all_goals rename_i hx; cases hx
    · obtain ⟨_, _, h⟩ := gcLines_stale _ _ _ _ rfl _ hx
      cases h
    · exact absurd (quiet_reply _ _ _ hx).2.2.1 nofun
    · rw [tickLines_nil] at hx
      cases hx
    · exact absurd (quiet_send _ _ _ _ hx).2.2.1 nofun
  all_goals cases hx

/-- C146: what the log says about nodes is what the Controller knows: the addresses and names, in order. -/
theorem C146_nodes {P : Params} {s : Sys} {as : List Act} (h : (Sys.init P).execs P as = some s) :
    ((Sys.init P).log P as).foldl Line.follow [] =
      s.ctrl.nodes.map fun r => ((s.ctrl.heap r).node.ip, (s.ctrl.heap r).node.name) :=
  log_tell (Reach.init P) h

/-- C146: a call of SendDMXToAddress logs an error if and only if it does not store the data, and then it changes nothing. -/
theorem C146_calls {P : Params} {s s' : Sys} {i : Nat} {dmx : Arr 512} {a : Address}
    (ht : s.threads[i]? = some (.caller dmx a)) (h : s.exec P (.run i .next) = some s') :
    (s.lines P (.run i .next) = [] ∧ ∃ r b, s.ctrl.output.get a = some r ∧
      (s'.ctrl.heap r).dmxBuffer.get a = some b ∧ b.data = dmx ∧ b.stale = true) ∨
    (s.lines P (.run i .next) = [.noNode a] ∧ s.ctrl.output.get a = none ∧ s'.ctrl = s.ctrl) ∨
    (s.lines P (.run i .next) = [.noBuffer a] ∧
      (∃ r, s.ctrl.output.get a = some r ∧ (s.ctrl.heap r).dmxBuffer.get a = none) ∧ s'.ctrl = s.ctrl) := by
  unfold Sys.exec at h
  split at h
  · cases h
  simp only [ht, Sys.step] at h
  split at h
  · cases h
  cases h
  simp only [Sys.lines, ht, Sys.stepLines, sendLines, Sys.goto]
  cases ho : s.ctrl.output.get a with
  | none => exact .inr (.inl ⟨rfl, rfl, by simp only [Ctrl.sendDMX, ho]⟩)
  | some r =>
    cases hb : (s.ctrl.heap r).dmxBuffer.get a with
    | none =>
      refine .inr (.inr ⟨?_, ⟨r, rfl, hb⟩, ?_⟩)
      · simp [ControlledNode.setDMXBuffer, hb]
      · simp only [Ctrl.sendDMX, ho, ControlledNode.setDMXBuffer, hb]
        exact store_self _ _
    | some b =>
      refine .inl ⟨?_, r, { b with data := dmx, stale := true }, rfl, ?_, rfl, rfl⟩
      · simp [ControlledNode.setDMXBuffer, hb]
      · simp only [Ctrl.sendDMX, ho, ControlledNode.setDMXBuffer, hb]
        rw [store_heap_same]
        exact GoMap.get_set_same ..

/-- C146: the update loop never logs an error. -/
theorem C146_never {P : Params} {as : List Act} (a : Address) : .noData a ∉ (Sys.init P).log P as := by
  intro h
  obtain ⟨s1, s2, b, _, _, hx⟩ := log_mem (Reach.init P) h
  rcases lines_step hx with ⟨i, c, t, rfl, ht, hx⟩ | ⟨_, _, hx⟩ | hx | hx | ⟨_, hx⟩ | ⟨_, hx⟩
  · unfold Sys.stepLines at hx
    split at hx
    all_goals first
    | (cases hx; done)
    | (cases List.mem_singleton.mp hx; done)
    | skip
    · repeat' split at hx
      all_goals cases hx
      all_goals rename_i hx; cases hx
    · repeat' split at hx
      all_goals cases hx
      all_goals rename_i hx; cases hx
    · repeat' split at hx
      all_goals cases hx
      all_goals rename_i hx; cases hx
    · obtain ⟨_, _, h⟩ := gcLines_stale _ _ _ _ rfl _ hx
      cases h
    · unfold replyLines at hx
      dsimp only at hx
      repeat' split at hx
      all_goals cases hx
      all_goals rename_i hx; cases hx
    · rw [tickLines_nil] at hx
      cases hx
    · unfold sendLines at hx
      repeat' split at hx
      all_goals cases hx
      all_goals rename_i hx; cases hx
  all_goals cases hx

theorem step_starts {P : Params} {s : Sys} {t : Thread} {c : Choice} {x : Line} (h : x ∈ s.stepLines P t c) :
    Line.starts x = false ∧ x ≠ .listenFailed := by
  unfold Sys.stepLines at h
  split at h
  all_goals first
  | (cases h; done)
  | (cases List.mem_singleton.mp h; exact ⟨rfl, nofun⟩)
  | skip
  · repeat' split at h
    all_goals first
    | (cases h; done)
    | (cases List.mem_singleton.mp h; exact ⟨rfl, nofun⟩)
  · repeat' split at h
    all_goals first
    | (cases h; done)
    | (cases List.mem_singleton.mp h; exact ⟨rfl, nofun⟩)
  · repeat' split at h
    all_goals first
    | (cases h; done)
    | (cases List.mem_singleton.mp h; exact ⟨rfl, nofun⟩)
  · obtain ⟨_, _, rfl⟩ := gcLines_stale _ _ _ _ rfl _ h
    exact ⟨rfl, nofun⟩
  · unfold replyLines at h
    dsimp only at h
    repeat' split at h
    all_goals first
    | (cases h; done)
    | (cases List.mem_singleton.mp h; exact ⟨rfl, nofun⟩)
  · rw [tickLines_nil] at h
    cases h
  · unfold sendLines at h
    repeat' split at h
    all_goals first
    | (cases h; done)
    | (cases List.mem_singleton.mp h; exact ⟨rfl, nofun⟩)

theorem step_same {P : Params} {s s' : Sys} {i : Nat} {t : Thread} {c : Choice} (h : s.step P i t c = some s') :
    s'.chans.length = s.chans.length ∧ s'.shutdownErr = s.shutdownErr := by
  have := step_frame h
  refine ⟨?_, this.shutdownErr⟩
  have hd := congrArg List.length this.down
  simpa using hd

theorem exec_life {P : Params} {s s' : Sys} {a : Act} (h : s.exec P a = some s') :
    s'.chans.length = s.chans.length + (s.lines P a).countP Line.starts ∧
    (s'.shutdownErr = true ↔ s.shutdownErr = true ∨ .listenFailed ∈ s.lines P a) := by
  unfold Sys.exec at h
  split at h
  · cases h
  · cases a with
    | run i c =>
      dsimp only at h
      cases ht : s.threads[i]? with
      | none => rw [ht] at h; cases h
      | some t =>
        rw [ht] at h
        simp only [Sys.lines, ht]
        rw [(step_same h).1, (step_same h).2, List.countP_eq_zero.mpr (fun x hx => by rw [(step_starts hx).1]; nofun)]
        exact ⟨rfl, .inl, fun hx => hx.elim id fun hx => absurd rfl (step_starts hx).2⟩
    | start =>
      dsimp only at h
      simp only [Sys.lines]
      have hreset : (if P.controller = true then s.resetTables else s).chans = s.chans ∧
          (if P.controller = true then s.resetTables else s).shutdownErr = s.shutdownErr := by
        split <;> exact ⟨rfl, rfl⟩
      split at h
      · cases h
      split at h
      · rename_i hv
        cases h
        simp [Sys.panic, hreset.1, hreset.2, hv]
      · rename_i hv
        cases h
        simp [hreset.1, hreset.2, hv]
      · rename_i hv
        cases h
        simp [Sys.makeChannels, hreset.1, hreset.2, hv, Line.starts]
    | listen ok =>
      dsimp only at h
      split at h
      · cases h
      split at h
      · rename_i ho
        cases h
        simp [Sys.lines, ho]
      · rename_i ho
        cases h
        simp [Sys.lines, ho, Line.starts]
    | stopStep =>
      have hl : ∀ x ∈ s.lines P .stopStep, x = .closeFailed := by
        intro x hx
        simp only [Sys.lines] at hx
        repeat' split at hx
        all_goals first
        | (cases hx; done)
        | exact List.mem_singleton.mp hx
      rw [List.countP_eq_zero.mpr (fun x hx => by rw [hl x hx]; nofun)]
      have : s'.chans.length = s.chans.length ∧ s'.shutdownErr = s.shutdownErr := by
        dsimp only at h
        repeat' split at h
        all_goals first
        | (cases h; done)
        | (cases h; exact ⟨rfl, rfl⟩)
        | (cases h; exact ⟨List.length_set, rfl⟩)
      rw [this.1, this.2]
      exact ⟨rfl, .inl, fun hx => hx.elim id fun hx => absurd (hl _ hx) nofun⟩
    | _ =>
      dsimp only at h
      simp only [Sys.lines]
      repeat' split at h
      all_goals first
      | (cases h; done)
      | (cases h; simp_all [Line.starts, Sys.panic])

/-- C146: the log has an entry for every Start that accepts the configuration, and an error if and only if one of them could
not listen. -/
theorem C146_starts {P : Params} {s : Sys} {as : List Act} (h : (Sys.init P).execs P as = some s) :
    ((Sys.init P).log P as).countP Line.starts = s.chans.length ∧
    (.listenFailed ∈ (Sys.init P).log P as ↔ s.shutdownErr = true) := by
  suffices ∀ (as : List Act) (s0 : Sys), s0.execs P as = some s →
      s.chans.length = s0.chans.length + (s0.log P as).countP Line.starts ∧
      (s.shutdownErr = true ↔ s0.shutdownErr = true ∨ .listenFailed ∈ s0.log P as) by
    obtain ⟨h1, h2⟩ := this as _ h
    refine ⟨?_, fun hx => h2.mpr (.inr hx), fun hx => (h2.mp hx).elim nofun id⟩
    rw [h1]
    exact (Nat.zero_add _).symm
  intro as
  induction as with
  | nil =>
    intro s0 h
    cases h
    exact ⟨rfl, .inl, fun hx => hx.elim id nofun⟩
  | cons a as ih =>
    intro s0 h
    unfold Sys.execs at h
    split at h
    · cases h
    · rename_i s1 h1
      obtain ⟨e1, e2⟩ := exec_life h1
      obtain ⟨f1, f2⟩ := ih s1 h
      unfold Sys.log
      rw [h1]
      dsimp only
      rw [List.countP_append, List.mem_append, f1, e1, Nat.add_assoc, f2, e2, or_assoc]
      exact ⟨rfl, .rfl⟩

/-- What a Controller logs that is told about a node, is given data for it and for a universe that no node has, and updates it. -/
example : (Sys.init sampleController).log sampleController (sampleDiscover ++ [.call fullOn ⟨0, 1⟩, .run 7 .next, .call fullOn ⟨0, 2⟩,
      .run 8 .next] ++ sampleTick [⟨0, 1⟩] ++
      [.run 2 .next, .run 2 .next, .run 2 .next, .run 2 .next, .run 2 .next, .run 2 .next, .run 2 .next]) =
    [.started [2, 0, 0, 1] StyleCode.stController, .received ⟨ipA.val, 6454⟩ 239,
      .added (configFromArtPollReply (replyOf ipA 1)).name ipA.val, .call ⟨0, 1⟩, .call ⟨0, 2⟩, .noNode ⟨0, 2⟩,
      .sent ⟨[2, 255, 255, 255], 6454⟩ 14, .sent ⟨ipA.val, 6454⟩ 530] := by
  decide +kernel

/-- The node is not heard of for eight seconds. -/
example : ((Sys.init sampleController).log sampleController (sampleDiscover ++ [.run 3 .next, .run 3 .gcTick,
      .run 3 (.clock fun _ => 8 * second)])).getLast? = some (.stale (configFromArtPollReply (replyOf ipA 1)).name ipA.val) := by
  decide +kernel

/-- The port is in use at the second Start; the second Stop finds the connection closed. -/
example : (Sys.init sampleNode).log sampleNode [.start, .listen true, .register OpCode.opDMX .nil, .stop, .stopStep, .stopStep, .start,
      .listen false, .stop, .stopStep, .stopStep] =
    [.started [2, 0, 0, 1] StyleCode.stNode, .registration OpCode.opDMX, .started [2, 0, 0, 1] StyleCode.stNode, .listenFailed,
      .closeFailed] := by
  decide +kernel

/-- What a Node logs that is sent an ArtPoll, and four bytes. -/
example : (Sys.init sampleNode).log sampleNode (samplePollAnswered ++ sampleRead 3 ⟨[2, 0, 0, 3], 6454⟩ [1, 2, 3, 4]) =
    [.started [2, 0, 0, 1] StyleCode.stNode, .received ⟨[2, 0, 0, 2], 6454⟩ 14, .replying,
      .sent ⟨[2, 255, 255, 255], 6454⟩ 239, .received ⟨[2, 0, 0, 3], 6454⟩ 4,
      .unparsed [2, 0, 0, 3] [1, 2, 3, 4] .incorrectHeaderLength] := by
  decide +kernel

end Verif.Props
