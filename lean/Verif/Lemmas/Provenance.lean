import Verif.Lemmas.CtrlInv
/-
Where the nodes, buffers and datagrams of the controller come from.
-/
namespace Verif.Artnet
open Spec Packet Code

/-- Every known node has been announced by a tracked reply in `past`. -/
def Announced (c : Ctrl) (past : List Op) : Prop :=
  ∀ r ∈ c.nodes, ∃ p now, Op.reply p now ∈ past ∧ Tracked p ∧ (c.heap r).node = configFromArtPollReply p

/-- Every buffer holds zeros or data of a call of SendDMXToAddress in `past`. -/
def Stored (c : Ctrl) (past : List Op) : Prop :=
  ∀ r a b, (c.heap r).dmxBuffer.get a = some b →
    b.data = DmxBuffer.zero.data ∨ Op.send b.data a ∈ past

theorem Announced.mono {c : Ctrl} {l m : List Op} (h : Announced c l) (hm : ∀ o ∈ l, o ∈ m) : Announced c m := by
  intro r hr
  obtain ⟨p, now, h1, h2, h3⟩ := h r hr
  exact ⟨p, now, hm _ h1, h2, h3⟩

theorem Stored.mono {c : Ctrl} {l m : List Op} (h : Stored c l) (hm : ∀ o ∈ l, o ∈ m) : Stored c m := by
  intro r a b hb
  exact (h r a b hb).imp id (hm _)

theorem announced_step {c : Ctrl} (hi : Inv c) {past : List Op} (h : Announced c past) {o : Op}
    (ho : c.CanDo o) : Announced (c.step o).1 (past ++ [o]) := by
  have hm : Announced c (past ++ [o]) := h.mono fun x hx => List.mem_append_left _ hx
  cases o with
  | reply p now =>
    show Announced (c.pollReply p now) _
    rw [pollReply_eq]
    split
    · rename_i ht
      have hp : Op.reply p now ∈ past ++ [Op.reply p now] := by simp
      rcases updateNode_cases c (configFromArtPollReply p) now with ⟨r, hk, e⟩ | ⟨hk, e⟩
      · rw [e]
        intro x hx
        by_cases hxr : x = r
        · exact ⟨p, now, hp, ht, by simp [updatedAt, hxr]⟩
        · obtain ⟨q, t, h1, h2, h3⟩ := hm x hx
          exact ⟨q, t, h1, h2, by simp [updatedAt, hxr, h3]⟩
      · rw [e]
        intro x hx
        have hx : x ∈ c.nodes ++ [c.next] := hx
        by_cases hxr : x = c.next
        · exact ⟨p, now, hp, ht, by simp [addedNode, hxr]⟩
        · have hx : x ∈ c.nodes := by simpa [hxr] using hx
          obtain ⟨q, t, h1, h2, h3⟩ := hm x hx
          exact ⟨q, t, h1, h2, by simp [addedNode, hxr, h3]⟩
    · exact hm
  | gc clock =>
    obtain ⟨h1, _, _, h4, _⟩ := (gcNode_spec c clock hi.nodup).1
    intro r hr
    obtain ⟨q, t, h2, h3, h5⟩ := hm r (h4.subset hr)
    exact ⟨q, t, h2, h3, by show ((c.gcNode clock).heap r).node = _; rw [h1]; exact h5⟩
  | send d a =>
    obtain ⟨_, f2, _, _, _, f6, _⟩ := sendDMX_frame c d a
    intro r hr
    have hr : r ∈ (c.sendDMX d a).nodes := hr
    rw [f2] at hr
    obtain ⟨q, t, h2, h3, h5⟩ := hm r hr
    exact ⟨q, t, h2, h3, ((f6 r).2.1).trans h5⟩
  | tick order now =>
    have t := tick_spec hi (now := now) ho
    intro r hr
    rw [t.nodes] at hr
    obtain ⟨q, tt, h2, h3, h5⟩ := hm r hr
    exact ⟨q, tt, h2, h3, (t.node r).trans h5⟩
  | restart => exact hm

theorem stored_step {c : Ctrl} (hi : Inv c) {past : List Op} (h : Stored c past) {o : Op}
    (ho : c.CanDo o) : Stored (c.step o).1 (past ++ [o]) := by
  have hm : Stored c (past ++ [o]) := h.mono fun x hx => List.mem_append_left _ hx
  cases o with
  | reply p now =>
    show Stored (c.pollReply p now) _
    rw [pollReply_eq]
    split
    · rcases updateNode_cases c (configFromArtPollReply p) now with ⟨r, hk, e⟩ | ⟨hk, e⟩
      · rw [e]
        intro x a b hb
        refine hm x a b ?_
        by_cases hxr : x = r
        · subst hxr; simpa [updatedAt] using hb
        · simpa [updatedAt, hxr] using hb
      · rw [e]
        intro x a b hb
        by_cases hxr : x = c.next
        · left
          have hb : (newBuffers (configFromArtPollReply p).outputs).get a = some b := by
            simpa [addedNode, hxr] using hb
          rw [newBuffers_get] at hb
          split at hb
          · cases hb; rfl
          · cases hb
        · exact hm x a b (by simpa [addedNode, hxr] using hb)
    · exact hm
  | gc clock =>
    obtain ⟨h1, _⟩ := (gcNode_spec c clock hi.nodup).1
    intro r a b hb
    have hb : ((c.gcNode clock).heap r).dmxBuffer.get a = some b := hb
    rw [h1] at hb
    exact hm r a b hb
  | send d x =>
    obtain ⟨_, _, _, _, _, _, _, f8⟩ := sendDMX_frame c d x
    intro r a b hb
    have hb : ((c.sendDMX d x).heap r).dmxBuffer.get a = some b := hb
    rw [f8] at hb
    split at hb
    · rename_i hc
      obtain ⟨b', _, rfl⟩ := Option.map_eq_some_iff.mp hb
      rw [hc.2]
      right; simp
    · exact hm r a b hb
  | tick order now =>
    have t := tick_spec hi (now := now) ho
    intro r a b hb
    rw [t.buffer] at hb
    split at hb
    · cases hb
      have hd : (ticked (bufferAt (c.heap r) a) now c.maxFPS).data = (bufferAt (c.heap r) a).data := by
        unfold ticked; split <;> rfl
      rw [hd, bufferAt]
      cases hg : (c.heap r).dmxBuffer.get a with
      | none => exact .inl rfl
      | some b' => exact hm r a b' hg
    · exact hm r a b hb
  | restart => exact hm

theorem provenance {c : Ctrl} (hi : Inv c) {past : List Op} (h1 : Announced c past) (h2 : Stored c past)
    (os : List Op) (ho : c.CanRun os) :
    Announced (c.run os).1 (past ++ os) ∧ Stored (c.run os).1 (past ++ os) := by
  induction os generalizing c past with
  | nil => rw [List.append_nil]; exact ⟨h1, h2⟩
  | cons o os ih =>
    have := ih (hi.step o ho.1) (announced_step hi h1 ho.1) (stored_step hi h2 ho.1) ho.2
    rw [List.append_assoc] at this
    exact this

theorem provenance_init (m : Int) (os : List Op) (ho : (Ctrl.init m).CanRun os) :
    Announced ((Ctrl.init m).run os).1 os ∧ Stored ((Ctrl.init m).run os).1 os := by
  have := provenance (inv_init m) (past := []) (fun r hr => by cases hr) (fun r a b hb => by
    simp [Ctrl.init, ControlledNode.none, GoMap.get] at hb) os ho
  simpa using this

end Verif.Artnet
