import Verif.Props.Stream
/-
C54 in terms of the history: when SendDMXToAddress keeps the data.
-/
namespace Verif.Props
open Artnet Packet Code Spec

/-- The operation gives node `r` a buffer for universe `a`: it makes the node known with that universe, or it is a tick that finds
the universe routed to the node. -/
def Prepares (c : Ctrl) (a : Address) (r : Ref) : Op → Prop
  | .reply p _ => Tracked p ∧ a ∈ (configFromArtPollReply p).outputs ∧ r = c.next ∧ ∀ x ∈ c.nodes, ipOf c x ≠ p.ipAddress.val
  | .tick _ _ => Routed c a r
  | _ => False

theorem prepares_step {c : Ctrl} (hi : Inv c) (o : Op) (ho : c.CanDo o) (a : Address) (r : Ref) :
    (∃ b, ((c.step o).1.heap r).dmxBuffer.get a = some b) ↔ (∃ b, (c.heap r).dmxBuffer.get a = some b) ∨ Prepares c a r o := by
  cases o with
  | tick order now =>
    have ho : order.Perm c.output.keys := ho
    show (∃ b, ((c.step (.tick order now)).1.heap r).dmxBuffer.get a = some b) ↔ _ ∨ Routed c a r
    rw [(tick_spec hi (now := now) ho).buffer r a]
    split
    · rename_i h
      exact ⟨fun _ => .inr h.2, fun _ => ⟨_, rfl⟩⟩
    · rename_i h
      refine ⟨.inl, fun h' => h'.resolve_right fun hr => h ⟨ho.mem_iff.mpr ((GoMap.mem_keys_iff _ _).mpr ⟨r, hr⟩), hr⟩⟩
  | send d x =>
    show (∃ b, ((c.sendDMX d x).heap r).dmxBuffer.get a = some b) ↔ _ ∨ False
    obtain ⟨_, _, _, _, _, _, _, f8⟩ := sendDMX_frame c d x
    rw [f8, or_false]
    split
    · rename_i hx
      rw [← hx.2]
      cases (c.heap r).dmxBuffer.get a <;> simp
    · exact Iff.rfl
  | gc clock =>
    show (∃ b, ((c.gcNode clock).heap r).dmxBuffer.get a = some b) ↔ _ ∨ False
    obtain ⟨⟨g1, _⟩, _⟩ := gcNode_spec c clock hi.nodup
    rw [g1, or_false]
  | restart => exact (or_false _).symm ▸ Iff.rfl
  | reply p t =>
    show (∃ b, ((c.pollReply p t).heap r).dmxBuffer.get a = some b) ↔ _ ∨ (Tracked p ∧ _ ∧ _ ∧ _)
    rw [pollReply_eq]
    split
    · rename_i ht
      rcases updateNode_cases c (configFromArtPollReply p) t with ⟨s, hk, e⟩ | ⟨hk, e⟩
      · obtain ⟨hs, hip⟩ := known_some hk
        rw [e]
        have : ((updatedAt c s (configFromArtPollReply p) t).heap r).dmxBuffer = (c.heap r).dmxBuffer := by
          by_cases hr : r = s <;> simp [updatedAt, hr]
        rw [this]
        exact ⟨.inl, fun h => h.resolve_right fun h => h.2.2.2 s hs (by rw [config_ip] at hip; exact hip)⟩
      · rw [e]
        by_cases hr : r = c.next
        · have h1 : ((addedNode c (configFromArtPollReply p) t).heap r).dmxBuffer = newBuffers (configFromArtPollReply p).outputs := by
            simp [addedNode, hr]
          have h2 : (c.heap r).dmxBuffer.get a = none := by
            rw [hi.fresh r (by rw [hr]; exact Nat.le_refl _)]
            rfl
          rw [h1, h2, newBuffers_get]
          constructor
          · rintro ⟨b, hb⟩
            split at hb
            · rename_i ha
              exact .inr ⟨ht, ha, hr, fun x hx => by
                have := known_none hk x hx
                rw [config_ip] at this
                exact this⟩
            · cases hb
          · rintro (⟨b, hb⟩ | h)
            · cases hb
            · exact ⟨_, if_pos h.2.1⟩
        · have h1 : ((addedNode c (configFromArtPollReply p) t).heap r).dmxBuffer = (c.heap r).dmxBuffer := by
            simp [addedNode, hr]
          rw [h1]
          exact ⟨.inl, fun h => h.resolve_right fun h => hr h.2.2.1⟩
    · rename_i ht
      exact ⟨.inl, fun h => h.resolve_right fun h => ht h.1⟩

theorem prepares_run {c : Ctrl} (hi : Inv c) (os : List Op) (h : c.CanRun os) (a : Address) (r : Ref) :
    (∃ b, ((c.run os).1.heap r).dmxBuffer.get a = some b) ↔
      (∃ b, (c.heap r).dmxBuffer.get a = some b) ∨ ∃ pre o post, os = pre ++ o :: post ∧ Prepares (c.run pre).1 a r o := by
  induction os generalizing c with
  | nil =>
    refine ⟨.inl, fun h => h.resolve_right ?_⟩
    rintro ⟨pre, o, post, e, _⟩
    cases pre <;> cases e
  | cons o os ih =>
    rw [(run_cons c o os).1, ih (hi.step o h.1) h.2, prepares_step hi o h.1, or_assoc]
    apply or_congr Iff.rfl
    constructor
    · rintro (hp | ⟨pre, o', post, e, hp⟩)
      · exact ⟨[], o, os, rfl, hp⟩
      · refine ⟨o :: pre, o', post, by rw [e]; rfl, ?_⟩
        rw [(run_cons c o pre).1]
        exact hp
    · rintro ⟨pre, o', post, e, hp⟩
      cases pre with
      | nil =>
        cases e
        exact .inl hp
      | cons x pre =>
        cases e
        rw [(run_cons c o pre).1] at hp
        exact .inr ⟨pre, o', post, rfl, hp⟩

/-- C54, exactly: what is sent to a universe routed to node `r` is kept for transmission if and only if the node claimed the universe
when it became known, or some tick since then found the universe routed to it. -/
theorem C54_exact (m : Int) (os : List Op) (h : (Ctrl.init m).CanRun os) (a : Address) (r : Ref)
    (hr : Routed ((Ctrl.init m).run os).1 a r) (d : Arr 512) :
    (∃ b, ((((Ctrl.init m).run os).1.sendDMX d a).heap r).dmxBuffer.get a = some b ∧ b.data = d ∧ b.stale = true) ↔
    ∃ pre o post, os = pre ++ o :: post ∧ Prepares ((Ctrl.init m).run pre).1 a r o := by
  rw [← (C54_partial m os h a r).1 hr d, prepares_run (inv_init m) os h]
  exact ⟨fun h => h.resolve_left (by rintro ⟨b, hb⟩; cases hb), .inr⟩

/-- Data for universe 1, claimed when the node became known, is kept. For universe 2, which it claimed later, it is kept once a tick
has passed. -/
example : (Ctrl.init 40).CanRun (moved ++ [.tick [⟨0, 2⟩] (2 * second)]) ∧
    Routed ((Ctrl.init 40).run (moved ++ [.tick [⟨0, 2⟩] (2 * second)])).1 ⟨0, 2⟩ 0 ∧
    Prepares ((Ctrl.init 40).run moved).1 ⟨0, 2⟩ 0 (.tick [⟨0, 2⟩] (2 * second)) := by
  refine ⟨⟨trivial, trivial, List.isPerm_iff.mp (by decide +kernel), trivial⟩, ?_, ?_⟩
  · show GoMap.get _ _ = _
    decide +kernel
  · show GoMap.get _ _ = _
    decide +kernel

end Verif.Props
