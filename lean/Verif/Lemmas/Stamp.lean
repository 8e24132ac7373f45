import Verif.Lemmas.Provenance
import Verif.Spec.Rate
/-
The time stamps in the buffers of the controller are times of ticks.
-/
namespace Verif.Artnet
open Spec Packet Code

theorem tickTimes_append (os os' : List Op) : tickTimes (os ++ os') = tickTimes os ++ tickTimes os' := by
  induction os with
  | nil => rfl
  | cons o os ih => cases o <;> simp [tickTimes, ih]

/-- Every buffer was last sent at a tick in `past`, or never. -/
def Stamped (c : Ctrl) (past : List Op) : Prop :=
  ∀ r a b, (c.heap r).dmxBuffer.get a = some b → b.lastUpdate = 0 ∨ b.lastUpdate ∈ tickTimes past

theorem stamped_step {c : Ctrl} (hi : Inv c) {past : List Op} (h : Stamped c past) {o : Op}
    (ho : c.CanDo o) : Stamped (c.step o).1 (past ++ [o]) := by
  have hm : Stamped c (past ++ [o]) := fun r a b hb => by
    rw [tickTimes_append]
    exact (h r a b hb).imp id (List.mem_append_left _)
  cases o with
  | reply p now =>
    show Stamped (c.pollReply p now) _
    rw [pollReply_eq]
    split
    · rcases updateNode_cases c (configFromArtPollReply p) now with ⟨r, hk, e⟩ | ⟨hk, e⟩
      · rw [e]
        intro x a b hb
        refine hm x a b ?_
        by_cases hxr : x = r
        · subst hxr; simpa [updatedAt] using hb
        · simpa [updatedAt, hxr] using hb
      · rw [e]
        intro x a b hb
        by_cases hxr : x = c.next
        · left
          have hb : (newBuffers (configFromArtPollReply p).outputs).get a = some b := by
            simpa [addedNode, hxr] using hb
          rw [newBuffers_get] at hb
          split at hb
          · cases hb; rfl
          · cases hb
        · exact hm x a b (by simpa [addedNode, hxr] using hb)
    · exact hm
  | gc clock =>
    obtain ⟨h1, _⟩ := (gcNode_spec c clock hi.nodup).1
    intro r a b hb
    have hb : ((c.gcNode clock).heap r).dmxBuffer.get a = some b := hb
    rw [h1] at hb
    exact hm r a b hb
  | send d x =>
    obtain ⟨_, _, _, _, _, _, _, f8⟩ := sendDMX_frame c d x
    intro r a b hb
    have hb : ((c.sendDMX d x).heap r).dmxBuffer.get a = some b := hb
    rw [f8] at hb
    split at hb
    · rename_i hc
      obtain ⟨b', hb', rfl⟩ := Option.map_eq_some_iff.mp hb
      exact hm r x b' hb'
    · exact hm r a b hb
  | tick order now =>
    have t := tick_spec hi (now := now) ho
    intro r a b hb
    rw [t.buffer] at hb
    split at hb
    · cases hb
      have hold : (bufferAt (c.heap r) a).lastUpdate = 0 ∨
          (bufferAt (c.heap r) a).lastUpdate ∈ tickTimes (past ++ [.tick order now]) := by
        rw [bufferAt]
        cases hg : (c.heap r).dmxBuffer.get a with
        | none => exact .inl rfl
        | some b' => exact hm r a b' hg
      unfold ticked
      split
      · right; simp [tickTimes_append, tickTimes]
      · exact hold
    · exact hm r a b hb
  | restart => exact hm

theorem stamped {c : Ctrl} (hi : Inv c) {past : List Op} (h1 : Stamped c past)
    (os : List Op) (ho : c.CanRun os) : Stamped (c.run os).1 (past ++ os) := by
  induction os generalizing c past with
  | nil => rw [List.append_nil]; exact h1
  | cons o os ih =>
    have := ih (hi.step o ho.1) (stamped_step hi h1 ho.1) ho.2
    rw [List.append_assoc] at this
    exact this

theorem stamped_init (m : Int) (os : List Op) (ho : (Ctrl.init m).CanRun os) :
    Stamped ((Ctrl.init m).run os).1 os := by
  have := stamped (inv_init m) (past := []) (fun r a b hb => by
    simp [Ctrl.init, ControlledNode.none, GoMap.get] at hb) os ho
  simpa using this

/-- A buffer that was sent after `t1` belongs to a universe in `E`, which holds the universes of all datagrams. -/
theorem since_step {c : Ctrl} (hi : Inv c) {o : Op} (ho : c.CanDo o) {t1 : Int} (hz : 0 ≤ t1) {E E' : Address → Prop}
    (hE : ∀ a, E a → E' a) (hs : ∀ e ∈ (c.step o).2, E' (emAddress e))
    (h : ∀ r a b, (c.heap r).dmxBuffer.get a = some b → b.lastUpdate ≤ t1 ∨ E a) :
    ∀ r a b, ((c.step o).1.heap r).dmxBuffer.get a = some b → b.lastUpdate ≤ t1 ∨ E' a := by
  have hm : ∀ r a b, (c.heap r).dmxBuffer.get a = some b → b.lastUpdate ≤ t1 ∨ E' a :=
    fun r a b hb => (h r a b hb).imp id (hE a)
  cases o with
  | reply p now =>
    show ∀ r a b, ((c.pollReply p now).heap r).dmxBuffer.get a = some b → _
    rw [pollReply_eq]
    split
    · rcases updateNode_cases c (configFromArtPollReply p) now with ⟨r, hk, e⟩ | ⟨hk, e⟩
      · rw [e]
        intro x a b hb
        refine hm x a b ?_
        by_cases hxr : x = r
        · subst hxr; simpa [updatedAt] using hb
        · simpa [updatedAt, hxr] using hb
      · rw [e]
        intro x a b hb
        by_cases hxr : x = c.next
        · left
          have hb : (newBuffers (configFromArtPollReply p).outputs).get a = some b := by
            simpa [addedNode, hxr] using hb
          rw [newBuffers_get] at hb
          split at hb
          · cases hb; exact hz
          · cases hb
        · exact hm x a b (by simpa [addedNode, hxr] using hb)
    · exact hm
  | gc clock =>
    obtain ⟨h1, _⟩ := (gcNode_spec c clock hi.nodup).1
    intro r a b hb
    have hb : ((c.gcNode clock).heap r).dmxBuffer.get a = some b := hb
    rw [h1] at hb
    exact hm r a b hb
  | send d x =>
    obtain ⟨_, _, _, _, _, _, _, f8⟩ := sendDMX_frame c d x
    intro r a b hb
    have hb : ((c.sendDMX d x).heap r).dmxBuffer.get a = some b := hb
    rw [f8] at hb
    split at hb
    · rename_i hc
      obtain ⟨b', hb', rfl⟩ := Option.map_eq_some_iff.mp hb
      rw [hc.2]
      exact hm r x b' hb'
    · exact hm r a b hb
  | tick order now =>
    have t := tick_spec hi (now := now) ho
    intro r a b hb
    rw [t.buffer] at hb
    split at hb
    · rename_i hro
      cases hb
      unfold ticked
      split
      · rename_i hd
        right
        have hmem : a ∈ ((c.step (.tick order now)).2).map emAddress := by
          rw [t.addresses, List.mem_filter]
          refine ⟨hro.1, ?_⟩
          simp only [dueIn, hro.2]
          exact decide_eq_true hd
        obtain ⟨e, he, rfl⟩ := List.mem_map.mp hmem
        exact hs e he
      · rw [bufferAt]
        cases hg : (c.heap r).dmxBuffer.get a with
        | none => exact .inl hz
        | some b' => exact hm r a b' hg
    · exact hm r a b hb
  | restart => exact hm

theorem step_maxFPS {c : Ctrl} (hi : Inv c) (o : Op) (ho : c.CanDo o) : (c.step o).1.maxFPS = c.maxFPS := by
  cases o with
  | reply p now =>
    show (c.pollReply p now).maxFPS = _
    rw [pollReply_eq]
    split
    · rcases updateNode_cases c (configFromArtPollReply p) now with ⟨r, hk, e⟩ | ⟨hk, e⟩ <;> rw [e] <;> rfl
    · rfl
  | gc clock => exact (gcNode_spec c clock hi.nodup).1.2.2.1
  | send d x => exact (sendDMX_frame c d x).2.2.2.2.1
  | tick order now => exact (tick_spec hi (now := now) ho).maxFPS
  | restart => rfl

theorem run_maxFPS {c : Ctrl} (hi : Inv c) (os : List Op) (ho : c.CanRun os) : (c.run os).1.maxFPS = c.maxFPS := by
  induction os generalizing c with
  | nil => rfl
  | cons o os ih => exact (ih (hi.step o ho.1) ho.2).trans (step_maxFPS hi o ho.1)

end Verif.Artnet
