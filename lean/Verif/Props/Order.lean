import Verif.Props.Linear
import Verif.Lemmas.Order
/-
The order of the ArtDMX datagrams on the wire: C108.
-/
namespace Verif.Props
open Spec Packet Code Artnet Conc

/-! ### C108 -/

/-- The ArtDMX datagrams `l` are in order: the sequence numbers of those for one node count upwards (modulo 256), and the
data for a universe of a node is zeros or that of a call of SendDMXToAddress for that universe, never of an earlier call
than in a datagram before. `n` gives the number of datagrams made so far for a node, `os` the operations of the controller
in their order. -/
def InOrder (os : List Op) (n : Ref → Nat) (l : List Emission) : Prop :=
  (∀ r, ∃ ns : List Nat, ns.Pairwise (· < ·) ∧ (∀ i ∈ ns, 1 ≤ i ∧ i ≤ n r) ∧
    (l.filter (·.ref = r)).map emSequence = ns.map UInt8.ofNat) ∧
  ∀ r a, ∃ kes : List (Nat × Emission), kes.map (·.2) = l.filter (fun e => e.ref = r ∧ emAddress e = a) ∧
    (kes.map (·.1)).Pairwise (· ≤ ·) ∧ ∀ x ∈ kes, Source os x.1 a (emChannels x.2)

/-- The number of datagrams the update loop has made for a node. -/
def madeFor (s : Sys) (r : Ref) : Nat := (s.emitted.filter (·.ref = r)).length

theorem InOrder.sublist {os : List Op} {n : Ref → Nat} {l l' : List Emission} (h : InOrder os n l) (hl : l'.Sublist l) :
    InOrder os n l' := by
  refine ⟨fun r => ?_, fun r a => ?_⟩
  · obtain ⟨ns, h1, h2, h3⟩ := h.1 r
    have hs := (hl.filter (·.ref = r)).map emSequence
    rw [h3] at hs
    obtain ⟨ms, hm, e⟩ := List.sublist_map_iff.mp hs
    exact ⟨ms, h1.sublist hm, fun i hi => h2 i (hm.subset hi), e⟩
  · obtain ⟨kes, h1, h2, h3⟩ := h.2 r a
    have hs := hl.filter (fun e => e.ref = r ∧ emAddress e = a)
    rw [← h1] at hs
    obtain ⟨ms, hm, e⟩ := List.sublist_map_iff.mp hs
    exact ⟨ms, e.symm, h2.sublist (hm.map _), fun x hx => h3 x (hm.subset hx)⟩

/-- C108 inside the controller, under every schedule: the update loop makes the datagrams in order. -/
theorem C108_emitted {P : Params} {s : Sys} (h : Reach P s) : InOrder s.hist (madeFor s) s.emitted := by
  refine ⟨fun r => ?_, fun r a => ?_⟩
  · refine ⟨(List.range (madeFor s r)).map (· + 1), ?_, ?_, ?_⟩
    · exact List.pairwise_map.mpr (List.pairwise_lt_range.imp fun h => by omega)
    · intro i hi
      obtain ⟨j, hj, rfl⟩ := List.mem_map.mp hi
      have := List.mem_range.mp hj
      omega
    · rw [C73_sequence h r, List.map_map]; rfl
  · obtain ⟨h1, h2, _⟩ := C73_linearizable h
    obtain ⟨_, kes, _, e1, e2, _, e3⟩ := run_follows P.maxFPS s.hist h1 r a
    have hs := h2.sublist.filter (fun e => e.ref = r ∧ emAddress e = a)
    rw [← e1] at hs
    obtain ⟨ms, hm, e⟩ := List.sublist_map_iff.mp hs
    exact ⟨ms, e.symm, e2.sublist (hm.map _), fun x hx => e3 x (hm.subset hx)⟩

/-- C108 as stated: the ArtDMX datagrams on the wire are among those the update loop made, in order. -/
def C108_statement : Prop := ∀ (P : Params) (s : Sys), Reach P s →
  ∃ l : List Emission, l.Sublist s.emitted ∧ s.wire.filter isDmx = l.map toPayload ∧ InOrder s.hist (madeFor s) l

/-- Stop and Start again before sendLoop (2) has returned: it goes on beside the new one (7). The controller discovers a
node and makes two datagrams for it. The old sendLoop takes the first one, the new one the second and is faster. -/
def sampleOvertaken : List Act := [.start, .listen true, .stop, .stopStep, .stopStep, .stopStep, .start, .listen true,
  .run 6 .next, .run 10 .next, .run 10 (.read ⟨ipA.val, 6454⟩ (pollReplyImage { replyOf ipA 1 with port := 6454 })),
  .run 10 .next, .run 10 .next, .run 10 .next, .run 6 .next, .run 6 .next, .run 6 .next,
  .run 11 .next, .run 11 .next, .run 11 .next,
  .run 8 .next, .run 8 .next, .run 8 .next, .run 8 .next, .run 8 .next, .run 8 .next, .run 8 (.at 0),
  .run 9 .next, .run 9 .next, .run 9 .tick, .run 9 (.order [⟨0, 1⟩] second),
  .run 9 .next, .run 9 .next, .run 9 .next, .run 9 .next,
  .call fullOn ⟨0, 1⟩, .run 12 .next,
  .run 9 .next, .run 9 .tick, .run 9 (.order [⟨0, 1⟩] (2 * second)), .run 9 .next, .run 9 .next, .run 9 .next,
  .run 7 .next, .run 7 .next, .run 7 .next, .run 7 .next,
  .run 2 .next, .run 2 .next, .run 7 .next, .run 7 .next, .run 7 .next, .run 7 .next, .run 2 .next, .run 2 .next]

theorem C108_false : ¬ C108_statement := by
  intro h
  have hw : after sampleController sampleOvertaken (fun s => !((s.wire.filter isDmx).isSublist (s.emitted.map toPayload)))
      = true := by decide +kernel
  obtain ⟨s, hr, _, hf⟩ := after_reach hw
  obtain ⟨l, h1, h2, _⟩ := h _ s hr
  have := h1.map toPayload
  rw [← h2] at this
  rw [List.isSublist_iff_sublist.mpr this] at hf
  cases hf

/-- C108 as far as it holds: when every Start waits for the goroutines of the session before. -/
theorem C108_partial {P : Params} {s : Sys} (h : TidyReach P s) :
    ∃ l : List Emission, l.Sublist s.emitted ∧ s.wire.filter isDmx = l.map toPayload ∧ InOrder s.hist (madeFor s) l := by
  have h1 := (C87_partial h).filter isDmx
  rw [show (enqueued s).filter isDmx = _ from dmx_order h] at h1
  obtain ⟨l, hl, e⟩ := List.sublist_map_iff.mp (h1.trans List.filter_sublist)
  exact ⟨l, hl, e, (C108_emitted h.reach).sublist hl⟩

/-- In particular in the first session. -/
theorem C108_first {P : Params} {s : Sys} (h : Reach P s) (h1 : s.chans.length ≤ 1) :
    ∃ l : List Emission, l.Sublist s.emitted ∧ s.wire.filter isDmx = l.map toPayload ∧ InOrder s.hist (madeFor s) l :=
  C108_partial (first_tidy h h1)

/-- Discovery, a first tick, a call and a second tick: the zeros with number 1 and the data with number 2 are written. -/
example : afterTidy sampleController (sampleDiscover ++ sampleTick [⟨0, 1⟩] ++ [.run 4 .next, .call fullOn ⟨0, 1⟩, .run 7 .next,
      .run 4 .next, .run 4 .tick, .run 4 (.order [⟨0, 1⟩] (2 * second)), .run 4 .next, .run 4 .next, .run 4 .next] ++
      List.replicate 12 (.run 2 .next))
    (fun s => s.chans.length == 1 && (s.wire.filter isDmx).map (fun p => (byteAt p.data 12, p.data.drop 18)) ==
      [(1, List.replicate 512 0), (2, fullOn.val)] && s.wire.length == 3) = true := by
  decide +kernel

end Verif.Props
