import Verif.Lemmas.Rename
import Verif.Props.Send
import Verif.Props.Linear
/-
C145: the configuration shows in the announcement and nowhere else.
-/
namespace Verif.Props
open Spec Packet Code Artnet Conc

/-- C145: two systems of the same kind with the same frame rate do the same in every execution. Each action is possible in
both or in neither, and the states differ in the announcements on their way only. -/
theorem C145_alike {P Q : Params} (hk : SameKind P Q) (hf : P.controller = true → P.maxFPS = Q.maxFPS) (as : List Act)
    (hl : hearAlike P Q as) : (Sys.init Q).execs Q as = ((Sys.init P).execs P as).map (Sys.as Q) := by
  rw [← as_init P Q]
  refine execs_as hk (fun hc => ?_) ⟨[], rfl⟩ (by intro t ht; cases ht) hl (ticksAlike_same hf ⟨[], rfl⟩)
  rw [← hf hc]
  cases h : tickerPeriod P.maxFPS with
  | error f => exact .inl ⟨f, rfl, rfl⟩
  | ok d => exact .inr ⟨rfl, rfl⟩

/-- What can be observed from outside: the same calls of call-backs, the same results of Start, the same panics, the same
nodes in the table, the same ArtDMX datagrams, and on the wire the same datagrams in the same order, with the announcement
of the one system in the place of that of the other. -/
theorem C145_observed {P Q : Params} (hk : SameKind P Q) (hf : P.controller = true → P.maxFPS = Q.maxFPS) {as : List Act}
    (hl : hearAlike P Q as) {s : Sys} (h : (Sys.init P).execs P as = some s) :
    ∃ s', (Sys.init Q).execs Q as = some s' ∧ s'.calls = s.calls ∧ s'.dropped = s.dropped ∧ s'.results = s.results ∧
      s'.crashed = s.crashed ∧ s'.callbacks = s.callbacks ∧ s'.conn = s.conn ∧ s'.conns = s.conns ∧
      s'.rejected = s.rejected ∧ s'.hist = s.hist ∧ s'.emitted = s.emitted ∧ s'.ctrl.nodes = s.ctrl.nodes ∧
      s'.ctrl.heap = s.ctrl.heap ∧ s'.ctrl.output = s.ctrl.output ∧ s'.threads.length = s.threads.length ∧
      s'.wire.length = s.wire.length ∧
      ∀ (n : Nat) (p : Payload), s.wire[n]? = some p → ∃ p', s'.wire[n]? = some p' ∧
        ((p = ⟨P.broadcast, pollReplyImage (announced P.config)⟩ ∧
            p' = ⟨Q.broadcast, pollReplyImage (announced Q.config)⟩) ∨
          (p = ⟨P.ctrlBroadcast, pollBytes⟩ ∧ p' = ⟨Q.ctrlBroadcast, pollBytes⟩) ∨
          (isDmx p = true ∧ p' = p)) := by
  refine ⟨s.as Q, by rw [C145_alike hk hf as hl, h]; rfl, rfl, rfl, rfl, rfl, rfl, rfl, rfl, rfl, rfl, rfl, rfl, rfl, rfl,
    List.length_map _, List.length_map _, fun n p hp => ⟨Q.redraft p, ?_, ?_⟩⟩
  · show (s.wire.map Q.redraft)[n]? = _
    rw [List.getElem?_map, hp]
    rfl
  · have hm := List.mem_of_getElem? hp
    cases wire_sent ⟨as, h⟩ p hm with
    | reply me hme hp =>
      have : pollReplyImage (announced P.config) = me := Except.ok.inj ((me_eq P).symm.trans hme)
      subst hp
      exact .inl ⟨by rw [this], redraft_me P Q _ hme⟩
    | poll _ hp => subst hp; exact .inr (.inl ⟨rfl, redraft_poll Q _⟩)
    | dmx e he hp =>
      subst hp
      have hd := (emitted_dmx ⟨as, h⟩).2 e he
      exact .inr (.inr ⟨dmx_is_dmx hd _, redraft_dmx Q hd _⟩)

/-- The same in a form without the other system: what the configuration of a system can be told from is its announcements
and where it sends them. An execution that writes no announcement is an execution of every system of the same kind with the
same broadcast address of the controller, and leads there to the same datagrams. -/
theorem C145_silent {P Q : Params} (hk : SameKind P Q) (hf : P.controller = true → P.maxFPS = Q.maxFPS)
    (hb : P.ctrlBroadcast = Q.ctrlBroadcast) {as : List Act} (hl : hearAlike P Q as) {s : Sys}
    (h : (Sys.init P).execs P as = some s) (hn : ∀ p ∈ s.wire, isReply p = false) :
    ∃ s', (Sys.init Q).execs Q as = some s' ∧ s'.wire = s.wire := by
  refine ⟨s.as Q, by rw [C145_alike hk hf as hl, h]; rfl, ?_⟩
  show s.wire.map Q.redraft = s.wire
  rw [List.map_congr_left (g := id), List.map_id]
  intro p hp
  cases wire_sent ⟨as, h⟩ p hp with
  | reply me hme hp' =>
    have := hn p hp
    rw [hp', me_is_reply hme] at this
    cases this
  | poll _ hp => subst hp; rw [redraft_poll, hb]; rfl
  | dmx e he hp => subst hp; exact redraft_dmx Q ((emitted_dmx ⟨as, h⟩).2 e he) _

/-- A Node with another name, other texts and another address. -/
def renamedNode : Params :=
  { sampleNode with
    config := { sampleNode.config with name := [0x79], description := [0x7a], baseAddress := ⟨3, 7⟩ }
    broadcast := ⟨[192, 168, 1, 255], 6454⟩
    maxFPS := 5 }

/-- The hypotheses hold of the two Nodes, an ArtPoll is answered by both, and the answers differ. -/
example : SameKind sampleNode renamedNode ∧ hearAlike sampleNode renamedNode samplePollAnswered ∧
    after sampleNode samplePollAnswered (fun s => s.wire.length == 1) = true ∧
    after renamedNode samplePollAnswered (fun s => s.wire.map (·.address) == [⟨[192, 168, 1, 255], 6454⟩] &&
      s.wire.map (fun p => (p.data.drop 26).take 2) == [[0x79, 0]]) = true := by
  refine ⟨⟨rfl, iff_of_false (by decide) (by decide), ?_⟩, fun _ _ _ _ => rfl, by decide +kernel, by decide +kernel⟩
  exact iff_of_true ⟨by decide, by decide, fun i a b ha => by cases ha⟩ ⟨by decide, by decide, fun i a b ha => by cases ha⟩

/-- A Controller with another name, which broadcasts to another address. -/
def renamedController : Params :=
  Params.ofController (newController [0x79, 0x7a] [2, 0, 0, 1] [.broadcastAddr ⟨[2, 0, 0, 255], 6454⟩])

/-- The hypotheses hold of two Controllers, and both of them light a node that they have discovered. -/
example : SameKind sampleController renamedController ∧ sampleController.maxFPS = renamedController.maxFPS ∧
    ∀ P ∈ [sampleController, renamedController], after P (sampleDiscover ++ [.call fullOn ⟨0, 1⟩, .run 7 .next] ++
      sampleTick [⟨0, 1⟩] ++ [.run 2 .next, .run 2 .next, .run 2 .next, .run 2 .next, .run 2 .next, .run 2 .next, .run 2 .next])
      (fun s => s.wire.any isDmx && s.wire.any (fun p => isArtPoll p && p.address == P.ctrlBroadcast)) = true := by
  refine ⟨⟨rfl, iff_of_true rfl rfl, ?_⟩, rfl, by decide +kernel⟩
  exact iff_of_true ⟨by decide, by decide, fun i a b ha => by cases ha⟩ ⟨by decide, by decide, fun i a b ha => by cases ha⟩

end Verif.Props
