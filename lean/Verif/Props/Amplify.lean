import Verif.Props.Interop
/-
C130: how much a node writes for what it receives.
-/
namespace Verif.Props
open Conc Packet Code Artnet Spec

/-- The bytes in some datagrams. -/
def bytesIn (l : List Payload) : Nat := (l.map (·.data.length)).sum

theorem bytes_cons (p : Payload) (l : List Payload) : bytesIn (p :: l) = p.data.length + bytesIn l := by
  simp [bytesIn]

theorem poll_size {b : Bytes} {q : ArtPoll} (h : unmarshal b = .ok (some (.poll q), none)) : 14 ≤ b.length := by
  have h6 := (C06_dispatch_fidelity b _ h).1
  have h8 := (C08_truncated_rejected b).2 (.poll q) (.poll q) h6.symm
  have hs : minSizeFor (.poll q) = 14 := rfl
  rw [hs] at h8
  by_cases hl : b.length < 14
  · exact absurd h (h8 hl)
  · omega

theorem polls_size (P : Params) (l : List Payload) :
    14 * (((l.filter (fromOther P)).map trunc).filterMap decode).countP isPoll ≤ bytesIn (l.filter (fromOther P)) := by
  generalize l.filter (fromOther P) = l
  induction l with
  | nil => simp [bytesIn]
  | cons p l ih =>
    rw [List.map_cons, List.filterMap_cons, bytes_cons]
    cases hd : decode (trunc p) with
    | none => simp only; omega
    | some x =>
      simp only [List.countP_cons]
      split
      · rename_i hx
        cases x with
        | poll q =>
          have hu : unmarshal (trunc p).data = .ok (some (.poll q), none) := by
            unfold decode at hd
            split at hd
            · rename_i e; cases hd; exact e
            · cases hd
          have h1 := poll_size hu
          have h2 : (trunc p).data.length ≤ p.data.length := by
            simp only [trunc, List.length_take]; omega
          omega
        | _ => cases hx
      · omega

/-- C130: what a Node (not a Controller) writes are its ArtPollReply packets, 239 bytes each, no more than ArtPoll datagrams have arrived
from other hosts; in bytes at most 239 / 14 times as much as has arrived from them. -/
theorem C130_amplification {P : Params} (hc : P.controller = false) {s : Sys} (h : Reach P s) :
    (∀ p ∈ s.wire, p.data.length = 239) ∧
    s.wire.length ≤ (((s.arrived.filter (fromOther P)).map trunc).filterMap decode).countP isPoll ∧
    14 * bytesIn s.wire ≤ 239 * bytesIn (s.arrived.filter (fromOther P)) := by
  have hw : ∀ p ∈ s.wire, p.data.length = 239 ∧ isReply p = true := by
    intro p hp
    cases wire_sent h p hp with
    | poll hc' => rw [hc] at hc'; cases hc'
    | dmx e he => rw [no_emissions h hc] at he; cases he
    | reply me hm hp =>
      rw [me_eq] at hm
      rw [hp, ← Except.ok.inj hm]
      refine ⟨?_, image_is_reply _ _⟩
      show (pollReplyImage (announced P.config)).length = 239
      rw [← ArtPollReply.image_eq]
      exact binaryWrite_length _
  have h1 : s.wire.countP isReply = s.wire.length := List.countP_eq_length.mpr fun p hp => (hw p hp).2
  have h2 := C62_one_per_poll h
  have h3 := C62_written h
  have h4 := C62_polls_received h
  rw [C62_node_own hc h] at h2
  have h5 := polls_size P s.arrived
  have h6 : bytesIn s.wire = 239 * s.wire.length := by
    have := fun p hp => (hw p hp).1
    clear h1 h3 hw
    revert this
    generalize s.wire = l
    intro hl
    induction l with
    | nil => rfl
    | cons p l ih =>
      rw [bytes_cons, hl p List.mem_cons_self, ih fun q hq => hl q (List.mem_cons_of_mem _ hq), List.length_cons]
      omega
  refine ⟨fun p hp => (hw p hp).1, by omega, ?_⟩
  rw [h6]
  omega

/-- The bound is reached: 14 bytes arrive and 239 are written, to the broadcast address. -/
theorem C130_tight : ∃ s, Reach sampleNode s ∧ sampleNode.controller = false ∧ bytesIn (s.arrived.filter (fromOther sampleNode)) = 14 ∧
    bytesIn s.wire = 239 := by
  have h : after sampleNode samplePollAnswered (fun s => bytesIn (s.arrived.filter (fromOther sampleNode)) == 14 &&
      bytesIn s.wire == 239) = true := by decide +kernel
  obtain ⟨s, hr, _, hf⟩ := after_reach h
  simp only [Bool.and_eq_true, beq_iff_eq] at hf
  exact ⟨s, hr, rfl, hf.1, hf.2⟩

/-- A controller is not bounded in this way: it writes 14 bytes before anything has arrived. -/
theorem C130_controller : ∃ s, Reach sampleController s ∧ s.arrived = [] ∧ bytesIn s.wire = 14 := by
  have h : after sampleController (sampleStart ++ [.run 3 .next, .run 3 .next, .run 3 .next, .run 2 .next, .run 2 .next, .run 2 .next])
      (fun s => s.arrived.isEmpty && bytesIn s.wire == 14) = true := by decide +kernel
  obtain ⟨s, hr, _, hf⟩ := after_reach h
  simp only [Bool.and_eq_true, beq_iff_eq, List.isEmpty_iff] at hf
  exact ⟨s, hr, hf.1, hf.2⟩

end Verif.Props
