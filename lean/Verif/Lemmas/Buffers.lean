import Verif.Props.Controller
import Verif.Spec.Buffers
/-
The buffers of the node objects along a history.
-/
namespace Verif.Artnet
open Spec Packet Code Props

/-- Distinct numbers below `n` are at most `n`. -/
theorem nodup_below {l : List Nat} {n : Nat} (hd : l.Nodup) (hl : ∀ x ∈ l, x < n) : l.length ≤ n := by
  induction n generalizing l with
  | zero =>
    cases l with
    | nil => exact Nat.le_refl _
    | cons x l => exact absurd (hl x (by simp)) (Nat.not_lt_zero _)
  | succ n ih =>
    have h1 := ih (l := l.erase n) (hd.erase n) fun x hx => by
      have := hl x (List.mem_of_mem_erase hx)
      have : x ≠ n := ((hd.mem_erase_iff).mp hx).1
      omega
    have h2 := List.length_erase (a := n) (l := l)
    split at h2 <;> omega

theorem addresses_le {l : List Address} (hd : l.Nodup) : l.length ≤ 65536 := by
  have h1 : (l.map fun a => a.net.toNat * 256 + a.subUni.toNat).Nodup := by
    rw [List.nodup_iff_pairwise_ne, List.pairwise_map]
    refine List.Pairwise.imp ?_ hd
    intro a b hab he
    have ha := a.subUni.toNat_lt
    have hb := b.subUni.toNat_lt
    apply hab
    have e1 : a.net = b.net := UInt8.toNat_inj.mp (by omega)
    have e2 : a.subUni = b.subUni := UInt8.toNat_inj.mp (by omega)
    cases a; cases b; cases e1; cases e2; rfl
  have h2 := nodup_below (n := 65536) h1 (by
    intro x hx
    obtain ⟨a, _, rfl⟩ := List.mem_map.mp hx
    have := a.net.toNat_lt
    have := a.subUni.toNat_lt
    omega)
  rwa [List.length_map] at h2

/-- Every node object has one buffer per address. -/
def BufWF (c : Ctrl) : Prop := ∀ r, (c.heap r).dmxBuffer.WF

theorem BufWF.store {c : Ctrl} (h : BufWF c) (r : Ref) {cn : ControlledNode} (hc : cn.dmxBuffer.WF) : BufWF (c.store r cn) := by
  intro x
  by_cases hx : x = r
  · subst hx; rw [store_heap_same]; exact hc
  · rw [store_heap_ne _ _ hx]; exact h x

theorem withBuffer_wf {cn : ControlledNode} (h : cn.dmxBuffer.WF) (a : Address) : (withBuffer cn a).dmxBuffer.WF := by
  unfold withBuffer
  split
  · exact GoMap.wf_set h _ _
  · exact h

theorem BufWF.tickOver {c : Ctrl} (h : BufWF c) (order : List Address) (now : Int) : BufWF (c.tickOver order now).1 := by
  induction order generalizing c with
  | nil => exact h
  | cons a order ih =>
    unfold Ctrl.tickOver
    split
    · exact ih h
    · rename_i r _
      have : BufWF (c.tickAt a r now).1 := by
        rw [tickAt_eq]
        split
        · exact h.store r (GoMap.wf_set (withBuffer_wf (h r) a) _ _)
        · exact h.store r (withBuffer_wf (h r) a)
      exact ih this

theorem newBuffers_wf (as : List Address) : (newBuffers as).WF := by
  have : ∀ m : GoMap Address DmxBuffer, m.WF → (as.foldl (fun m a => m.set a DmxBuffer.zero) m).WF := by
    induction as with
    | nil => exact fun _ h => h
    | cons a as ih => exact fun m h => ih _ (GoMap.wf_set h _ _)
  exact this [] List.nodup_nil

theorem BufWF.step {c : Ctrl} (h : BufWF c) (hi : Inv c) (o : Op) : BufWF (c.step o).1 := by
  cases o with
  | restart => exact h
  | tick order now => exact h.tickOver order now
  | gc clock =>
    obtain ⟨⟨g1, _⟩, _⟩ := gcNode_spec c clock hi.nodup
    intro r
    show ((c.gcNode clock).heap r).dmxBuffer.WF
    rw [g1]; exact h r
  | send d x =>
    show BufWF (c.sendDMX d x)
    unfold Ctrl.sendDMX
    split
    · exact h
    · rename_i r _
      refine h.store r ?_
      unfold ControlledNode.setDMXBuffer
      split
      · exact h r
      · exact GoMap.wf_set (h r) _ _
  | reply p now =>
    show BufWF (c.pollReply p now)
    rw [pollReply_eq]
    split
    · rcases updateNode_cases c (configFromArtPollReply p) now with ⟨s, _, e⟩ | ⟨_, e⟩
      · rw [e]
        intro r
        by_cases hr : r = s
        · subst hr; simp only [updatedAt, ite_true]; exact h r
        · simp only [updatedAt, hr, ite_false]; exact h r
      · rw [e]
        intro r
        by_cases hr : r = c.next
        · subst hr; simp only [addedNode, ite_true]; exact newBuffers_wf _
        · simp only [addedNode, hr, ite_false]; exact h r
    · exact h

theorem BufWF.run {c : Ctrl} (h : BufWF c) (hi : Inv c) (os : List Op) (ho : c.CanRun os) : BufWF (c.run os).1 := by
  induction os generalizing c with
  | nil => exact h
  | cons o os ih =>
    rw [(run_cons c o os).1]
    exact ih (h.step hi o) (hi.step o ho.1) ho.2

/-- What one operation can add to the buffers: those a reply gives to a new object, and those of routed
universes. -/
theorem holds_step {c : Ctrl} (hi : Inv c) (o : Op) (ho : c.CanDo o) {r : Ref} {a : Address} {b : DmxBuffer}
    (hb : ((c.step o).1.heap r).dmxBuffer.get a = some b) :
    (∃ b', (c.heap r).dmxBuffer.get a = some b') ∨ (r ∈ c.nodes ∧ a ∈ (c.heap r).node.outputs) ∨
    (∃ p t, o = .reply p t ∧ Tracked p ∧ ((c.step o).1.heap r).node = configFromArtPollReply p ∧
      a ∈ (configFromArtPollReply p).outputs) := by
  cases o with
  | restart => exact .inl ⟨b, hb⟩
  | tick order now =>
    have t := tick_spec hi (now := now) ho
    rw [t.buffer] at hb
    split at hb
    · rename_i hr
      exact .inr (.inl (hi.out a r hr.2))
    · exact .inl ⟨b, hb⟩
  | gc clock =>
    obtain ⟨⟨g1, _⟩, _⟩ := gcNode_spec c clock hi.nodup
    have : ((c.gcNode clock).heap r).dmxBuffer.get a = some b := hb
    rw [g1] at this
    exact .inl ⟨b, this⟩
  | send d x =>
    obtain ⟨_, _, _, _, _, _, _, f8⟩ := sendDMX_frame c d x
    have : ((c.sendDMX d x).heap r).dmxBuffer.get a = some b := hb
    rw [f8] at this
    split at this
    · rename_i hr
      obtain ⟨b', hb', _⟩ := Option.map_eq_some_iff.mp this
      exact .inl ⟨b', by rw [hr.2]; exact hb'⟩
    · exact .inl ⟨b, this⟩
  | reply p now =>
    have hb : ((c.pollReply p now).heap r).dmxBuffer.get a = some b := hb
    show _ ∨ _ ∨ (∃ p' t, _ ∧ _ ∧ ((c.pollReply p now).heap r).node = _ ∧ _)
    rw [pollReply_eq] at hb ⊢
    split at hb
    · rename_i ht
      rw [if_pos ht]
      rcases updateNode_cases c (configFromArtPollReply p) now with ⟨s, _, e⟩ | ⟨_, e⟩
      · rw [e] at hb
        left
        by_cases hr : r = s
        · subst hr
          simp only [updatedAt, ite_true] at hb
          exact ⟨b, hb⟩
        · simp only [updatedAt, hr, ite_false] at hb
          exact ⟨b, hb⟩
      · rw [e] at hb ⊢
        by_cases hr : r = c.next
        · subst hr
          right; right
          simp only [addedNode, ite_true] at hb
          have hb : (newBuffers (configFromArtPollReply p).outputs).get a = some b := hb
          rw [newBuffers_get] at hb
          split at hb
          · exact ⟨p, now, rfl, ht, by simp [addedNode], ‹_›⟩
          · cases hb
        · simp only [addedNode, hr, ite_false] at hb
          exact .inl ⟨b, hb⟩
    · exact .inl ⟨b, hb⟩

/-- The configuration of an object: that of before, or that of the reply just handled, which came from the
same IP address when the object is not new. -/
theorem node_step {c : Ctrl} (hi : Inv c) (o : Op) (ho : c.CanDo o) {r : Ref} (hr : r < (c.step o).1.next) :
    (r < c.next ∧ ((c.step o).1.heap r).node = (c.heap r).node) ∨
    (∃ p t, o = .reply p t ∧ Tracked p ∧ ((c.step o).1.heap r).node = configFromArtPollReply p ∧
      ((r < c.next ∧ (c.heap r).node.ip = (configFromArtPollReply p).ip) ∨ r = c.next)) := by
  cases o with
  | restart => exact .inl ⟨hr, rfl⟩
  | tick order now =>
    have t := tick_spec hi (now := now) ho
    rw [t.next] at hr
    exact .inl ⟨hr, t.node r⟩
  | gc clock =>
    obtain ⟨⟨g1, g2, _⟩, _⟩ := gcNode_spec c clock hi.nodup
    have hr : r < (c.gcNode clock).next := hr
    rw [g2] at hr
    refine .inl ⟨hr, ?_⟩
    show ((c.gcNode clock).heap r).node = _
    rw [g1]
  | send d x =>
    obtain ⟨f1, _, _, _, _, f6, _, _⟩ := sendDMX_frame c d x
    have hr : r < (c.sendDMX d x).next := hr
    rw [f1] at hr
    exact .inl ⟨hr, (f6 r).2.1⟩
  | reply p now =>
    have hr : r < (c.pollReply p now).next := hr
    show (_ ∧ ((c.pollReply p now).heap r).node = _) ∨ (∃ p' t, _ ∧ _ ∧ ((c.pollReply p now).heap r).node = _ ∧ _)
    rw [pollReply_eq] at hr ⊢
    split at hr
    · rename_i ht
      rw [if_pos ht]
      rcases updateNode_cases c (configFromArtPollReply p) now with ⟨s, hk, e⟩ | ⟨_, e⟩
      · rw [e] at hr ⊢
        have hr : r < c.next := hr
        by_cases hs : r = s
        · subst hs
          exact .inr ⟨p, now, rfl, ht, by simp [updatedAt], .inl ⟨hr, (known_some hk).2⟩⟩
        · exact .inl ⟨hr, by simp [updatedAt, hs]⟩
      · rw [e] at hr ⊢
        have hr : r < c.next + 1 := hr
        by_cases hs : r = c.next
        · subst hs
          exact .inr ⟨p, now, rfl, ht, by simp [addedNode], .inr rfl⟩
        · exact .inl ⟨Nat.lt_of_le_of_ne (Nat.le_of_lt_succ hr) hs, by simp [addedNode, hs]⟩
    · rename_i ht
      rw [if_neg ht]
      exact .inl ⟨hr, rfl⟩

/-- Everything an object is routed for or has a buffer for was claimed. -/
def Grounded (S : Bytes → Address → Prop) (c : Ctrl) : Prop := ∀ r, r < c.next →
  (∀ a ∈ (c.heap r).node.outputs, S (ipOf c r) a) ∧
  (∀ a b, (c.heap r).dmxBuffer.get a = some b → S (ipOf c r) a)

theorem Grounded.step {S : Bytes → Address → Prop} {c : Ctrl} (h : Grounded S c) (hi : Inv c) (o : Op) (ho : c.CanDo o) :
    Grounded (fun ip a => S ip a ∨ Claimed [o] ip a) (c.step o).1 := by
  intro r hr
  have hn := node_step hi o ho hr
  have hf : ∀ {p t}, o = .reply p t → Tracked p → ((c.step o).1.heap r).node = configFromArtPollReply p →
      ∀ {a}, a ∈ (configFromArtPollReply p).outputs → Claimed [o] (ipOf (c.step o).1 r) a := by
    intro p t e ht hc a ha
    refine ⟨p, t, by simp [e], ht, ?_, ha⟩
    rw [ipOf, hc, config_ip]
  have hip : r < c.next → ipOf (c.step o).1 r = ipOf c r := by
    intro hlt
    rcases hn with ⟨_, e⟩ | ⟨p, t, _, _, e, ⟨_, e'⟩ | e'⟩
    · rw [ipOf, e]; rfl
    · rw [ipOf, e, ← e']; rfl
    · exact absurd hlt (e' ▸ Nat.lt_irrefl _)
  have hold : r < c.next → ∀ a ∈ (c.heap r).node.outputs, S (ipOf (c.step o).1 r) a := by
    intro hlt a ha
    rw [hip hlt]; exact (h r hlt).1 a ha
  constructor
  · intro a ha
    rcases hn with ⟨hlt, e⟩ | ⟨p, t, e, ht, hc, _⟩
    · rw [e] at ha
      exact .inl (hold hlt a ha)
    · rw [hc] at ha
      exact .inr (hf e ht hc ha)
  · intro a b hb
    rcases holds_step hi o ho hb with ⟨b', hb'⟩ | ⟨hm, ha⟩ | ⟨p, t, e, ht, hc, ha⟩
    · by_cases hlt : r < c.next
      · rw [hip hlt]; exact .inl ((h r hlt).2 a b' hb')
      · rw [hi.fresh r (Nat.le_of_not_lt hlt)] at hb'
        cases hb'
    · exact .inl (hold (hi.lt_next r hm) a ha)
    · exact .inr (hf e ht hc ha)

theorem Grounded.run {S : Bytes → Address → Prop} {c : Ctrl} (h : Grounded S c) (hi : Inv c) (os : List Op)
    (ho : c.CanRun os) : Grounded (fun ip a => S ip a ∨ Claimed os ip a) (c.run os).1 := by
  induction os generalizing c S with
  | nil => exact fun r hr => ⟨fun a ha => .inl ((h r hr).1 a ha), fun a b hb => .inl ((h r hr).2 a b hb)⟩
  | cons o os ih =>
    rw [(run_cons c o os).1]
    have hc : ∀ {ip a}, ((S ip a ∨ Claimed [o] ip a) ∨ Claimed os ip a) → S ip a ∨ Claimed (o :: os) ip a := by
      rintro ip a ((h | ⟨p, t, h1, h2⟩) | ⟨p, t, h1, h2⟩)
      · exact .inl h
      · exact .inr ⟨p, t, List.mem_cons.mpr (.inl (List.mem_singleton.mp h1)), h2⟩
      · exact .inr ⟨p, t, List.mem_cons_of_mem _ h1, h2⟩
    have := ih (h.step hi o ho.1) (hi.step o ho.1) ho.2
    exact fun r hr => ⟨fun a ha => hc ((this r hr).1 a ha), fun a b hb => hc ((this r hr).2 a b hb)⟩

theorem grounded_init (m : Int) (os : List Op) (h : (Ctrl.init m).CanRun os) :
    Grounded (Claimed os) ((Ctrl.init m).run os).1 := by
  have := Grounded.run (S := fun _ _ => False) (fun r hr => absurd hr (Nat.not_lt_zero _)) (inv_init m) os h
  exact fun r hr => ⟨fun a ha => ((this r hr).1 a ha).resolve_left id, fun a b hb => ((this r hr).2 a b hb).resolve_left id⟩

/-- Without a call for `a` no operation changes the data for `a`, and what is sent for it is that data. -/
theorem data_step {c : Ctrl} (hi : Inv c) (o : Op) (ho : c.CanDo o) {a : Address} (hn : ¬ SendsTo a o) :
    (∀ r, (bufferAt ((c.step o).1.heap r) a).data = (bufferAt (c.heap r) a).data) ∧
    (∀ e ∈ (c.step o).2, emAddress e = a → emChannels e = (bufferAt (c.heap e.ref) a).data.val) := by
  cases o with
  | restart => exact ⟨fun _ => rfl, nofun⟩
  | tick order now =>
    have t := tick_spec hi (now := now) ho
    refine ⟨fun r => ?_, fun e he ha => ?_⟩
    · rw [bufferAt, t.buffer]
      split
      · rw [Option.getD_some]
        unfold ticked
        split <;> rfl
      · rfl
    · rw [(t.each e he).2.2.2, ha]
  | gc clock =>
    obtain ⟨⟨g1, _⟩, _⟩ := gcNode_spec c clock hi.nodup
    refine ⟨fun r => ?_, nofun⟩
    show (bufferAt ((c.gcNode clock).heap r) a).data = _
    rw [g1]
  | send d x =>
    obtain ⟨_, _, _, _, _, _, _, f8⟩ := sendDMX_frame c d x
    refine ⟨fun r => ?_, nofun⟩
    show (bufferAt ((c.sendDMX d x).heap r) a).data = _
    rw [bufferAt, f8, if_neg fun h => hn h.2.symm]
    rfl
  | reply p now =>
    refine ⟨fun r => ?_, nofun⟩
    show (bufferAt ((c.pollReply p now).heap r) a).data = _
    rw [pollReply_eq]
    split
    · rcases updateNode_cases c (configFromArtPollReply p) now with ⟨s, _, e⟩ | ⟨_, e⟩
      · rw [e]
        by_cases hr : r = s <;> simp [updatedAt, bufferAt, hr]
      · rw [e]
        by_cases hr : r = c.next
        · subst hr
          rw [hi.fresh c.next (Nat.le_refl _)]
          simp only [addedNode, ite_true, bufferAt, newBuffers_get]
          split <;> rfl
        · simp [addedNode, bufferAt, hr]
    · rfl

theorem data_run {c : Ctrl} (hi : Inv c) (os : List Op) (ho : c.CanRun os) {a : Address} (hn : ∀ o ∈ os, ¬ SendsTo a o) :
    (∀ r, (bufferAt ((c.run os).1.heap r) a).data = (bufferAt (c.heap r) a).data) ∧
    (∀ e ∈ (c.run os).2, emAddress e = a → emChannels e = (bufferAt (c.heap e.ref) a).data.val) := by
  induction os generalizing c with
  | nil => exact ⟨fun _ => rfl, nofun⟩
  | cons o os ih =>
    obtain ⟨h1, h2⟩ := data_step hi o ho.1 (hn o (by simp))
    obtain ⟨h3, h4⟩ := ih (hi.step o ho.1) ho.2 (fun x hx => hn x (by simp [hx]))
    rw [(run_cons c o os).1, (run_cons c o os).2]
    refine ⟨fun r => (h3 r).trans (h1 r), fun e he ha => ?_⟩
    rcases List.mem_append.mp he with he | he
    · exact h2 e he ha
    · rw [h4 e he ha, h1]

end Verif.Artnet
