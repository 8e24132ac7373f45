import Verif.Props.Interop
/-
C127: light data goes only to hosts that announced themselves.
-/
namespace Verif.Props
open Conc Packet Code Artnet Spec

/-- The header of the datagram says ArtDMX. -/
def saysDMX (d : Bytes) : Prop := (d.drop 8).take 2 = [0x00, 0x50]

/-- C127 as stated: ArtDMX is written only to addresses from which a datagram has arrived. -/
def C127_statement : Prop :=
  ∀ (P : Params) (s : Sys), Reach P s → ∀ p ∈ s.wire, saysDMX p.data → ∃ x ∈ s.arrived, SameAddress x.address.ip p.address.ip

/-- A host announces the address of another. -/
def sampleSpoof : List Act :=
  sampleStart ++ sampleRead 5 ⟨[2, 0, 0, 2], 6454⟩ (pollReplyImage { replyOf ipA 1 with port := 6454 }) ++
    [.run 6 .next, .run 6 .next, .run 6 .next, .run 3 .next, .run 3 .next, .run 3 .next, .run 3 .next,
      .run 3 .next, .run 3 .next, .run 3 (.at 0)] ++ sampleTick [⟨0, 1⟩] ++
      [.run 2 .next, .run 2 .next, .run 2 .next, .run 2 .next, .run 2 .next, .run 2 .next, .run 2 .next]

theorem spoofed : after sampleController sampleSpoof (fun s => s.arrived.map (·.address.ip) == [[2, 0, 0, 2]] &&
    s.wire.any fun p => p.address.ip == ipA.val && (p.data.drop 8).take 2 == [0x00, 0x50]) = true := by
  decide +kernel

/-- C127 is false: the destination is the address that the announcement contains. -/
theorem C127_false : ¬ C127_statement := by
  intro hst
  obtain ⟨s, hr, _, hf⟩ := after_reach spoofed
  simp only [Bool.and_eq_true, beq_iff_eq, List.any_eq_true] at hf
  obtain ⟨h1, p, hp, h2, h3⟩ := hf
  obtain ⟨x, hx, hsame⟩ := hst _ _ hr p hp h3
  have : x.address.ip ∈ s.arrived.map (·.address.ip) := List.mem_map_of_mem hx
  rw [h1, List.mem_singleton] at this
  rw [this, h2] at hsame
  revert hsame
  unfold SameAddress
  decide

/-- Every ArtPollReply that arrives contains the address that it comes from. -/
def honest (s : Sys) : Prop :=
  ∀ x ∈ s.arrived, ∀ q, decode (trunc x) = some (.pollReply q) → SameAddress x.address.ip q.ipAddress.val

/-- C127: it holds if announcements contain the address they come from. -/
theorem C127_partial {P : Params} {s : Sys} (h : Reach P s) (ho : honest s) :
    ∀ p ∈ s.wire, saysDMX p.data → ∃ x ∈ s.arrived, fromOther P x = true ∧ SameAddress x.address.ip p.address.ip := by
  intro p hp hd
  obtain ⟨as, h⟩ := h
  rcases C76_wire h p hp with rfl | ⟨_, rfl⟩ | ⟨e, rfl, _, ⟨x, hx, hx', q, hq, _, ha, _⟩, _⟩
  · exfalso
    have h9 : ((pollReplyImage (announced P.config)).drop 8).take 2 = [0x00, 0x21] := by
      generalize announced P.config = q
      unfold pollReplyImage; simp only [List.append_assoc]; rfl
    have hd : ((pollReplyImage (announced P.config)).drop 8).take 2 = [0x00, 0x50] := hd
    rw [h9] at hd
    revert hd; decide
  · exfalso
    have hd : (pollBytes.drop 8).take 2 = [0x00, 0x50] := hd
    revert hd
    decide +kernel
  · exact ⟨x, hx, hx', by rw [show (Payload.mk e.address e.data).address = e.address from rfl, ha]; exact ho x hx q hq⟩

/-- ArtDMX is written to the host that announced itself. -/
example : after sampleController (sampleDiscover ++ [.call fullOn ⟨0, 1⟩, .run 7 .next] ++ sampleTick [⟨0, 1⟩] ++
      [.run 2 .next, .run 2 .next, .run 2 .next, .run 2 .next, .run 2 .next, .run 2 .next, .run 2 .next])
    (fun s => (s.arrived.all fun x => match decode (trunc x) with
        | some (.pollReply q) => x.address.ip == q.ipAddress.val
        | _ => true) &&
      s.wire.any fun p => p.address.ip == ipA.val && (p.data.drop 8).take 2 == [0x00, 0x50]) = true := by
  decide +kernel

end Verif.Props
