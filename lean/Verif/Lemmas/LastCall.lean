import Verif.Spec.LastCall
import Verif.Lemmas.Buffers
/-
The data a node object holds for a universe, told by the history.
-/
namespace Verif.Artnet
open Spec Packet Code

theorem stateAfter_snoc (m : Int) (os : List Op) (o : Op) : stateAfter m (os ++ [o]) = ((stateAfter m os).step o).1 :=
  (run_append (Ctrl.init m) os [o]).1

theorem canRun_snoc {c : Ctrl} {os : List Op} {o : Op} (h : c.CanRun (os ++ [o])) :
    c.CanRun os ∧ (c.run os).1.CanDo o := by
  rw [canRun_append] at h
  exact ⟨h.1, h.2.1⟩

theorem snoc_induction {P : List Op → Prop} (h0 : P []) (hs : ∀ os o, P os → P (os ++ [o])) (os : List Op) : P os := by
  suffices h : ∀ n os, os.length = n → P os from h _ os rfl
  intro n
  induction n with
  | zero => intro os hl; rw [List.length_eq_zero_iff.mp hl]; exact h0
  | succ n ih =>
    intro os hl
    have hne : os ≠ [] := by rintro rfl; cases hl
    rw [← List.dropLast_concat_getLast hne]
    exact hs _ _ (ih _ (by simp [hl]))

/-- Which buffers there are after an operation. -/
theorem buf_step {c : Ctrl} (hi : Inv c) (o : Op) (ho : c.CanDo o) (r : Ref) (a : Address) :
    (∃ b, ((c.step o).1.heap r).dmxBuffer.get a = some b) ↔
    (∃ b, (c.heap r).dmxBuffer.get a = some b) ∨ (∃ order t, o = .tick order t ∧ Routed c a r) ∨
    (∃ p t, o = .reply p t ∧ Tracked p ∧ r ∉ c.nodes ∧ r ∈ (c.step o).1.nodes ∧ a ∈ (configFromArtPollReply p).outputs) := by
  cases o with
  | restart => simp [Ctrl.step, Ctrl.restart]
  | tick order now =>
    have t := tick_spec hi (now := now) ho
    rw [t.buffer]
    by_cases hr : c.output.get a = some r
    · have ha : a ∈ order := ho.mem_iff.mpr ((GoMap.mem_keys_iff _ _).mpr ⟨r, hr⟩)
      rw [if_pos ⟨ha, hr⟩]
      exact ⟨fun _ => .inr (.inl ⟨order, now, rfl, hr⟩), fun _ => ⟨_, rfl⟩⟩
    · rw [if_neg fun h => hr h.2]
      refine ⟨.inl, ?_⟩
      rintro (h | ⟨_, _, _, h⟩ | ⟨_, _, h, _⟩)
      · exact h
      · exact absurd h hr
      · cases h
  | gc clock =>
    obtain ⟨⟨g1, _⟩, _⟩ := gcNode_spec c clock hi.nodup
    show (∃ b, ((c.gcNode clock).heap r).dmxBuffer.get a = some b) ↔ _
    rw [g1]
    refine ⟨.inl, ?_⟩
    rintro (h | ⟨_, _, h, _⟩ | ⟨_, _, h, _⟩)
    · exact h
    · cases h
    · cases h
  | send d x =>
    obtain ⟨_, _, _, _, _, _, _, f8⟩ := sendDMX_frame c d x
    show (∃ b, ((c.sendDMX d x).heap r).dmxBuffer.get a = some b) ↔ _
    rw [f8]
    have : (∃ b, (if c.output.get x = some r ∧ a = x then
        ((c.heap r).dmxBuffer.get x).map fun b => { b with data := d, stale := true }
        else (c.heap r).dmxBuffer.get a) = some b) ↔ ∃ b, (c.heap r).dmxBuffer.get a = some b := by
      split
      · rename_i h
        rw [h.2]
        cases (c.heap r).dmxBuffer.get x <;> simp
      · exact Iff.rfl
    rw [this]
    refine ⟨.inl, ?_⟩
    rintro (h | ⟨_, _, h, _⟩ | ⟨_, _, h, _⟩)
    · exact h
    · cases h
    · cases h
  | reply p now =>
    show (∃ b, ((c.pollReply p now).heap r).dmxBuffer.get a = some b) ↔
      _ ∨ _ ∨ (∃ q t, _ ∧ Tracked q ∧ r ∉ c.nodes ∧ r ∈ (c.pollReply p now).nodes ∧ _)
    rw [pollReply_eq]
    by_cases ht : Tracked p
    · rw [if_pos ht]
      rcases updateNode_cases c (configFromArtPollReply p) now with ⟨s, hk, e⟩ | ⟨hk, e⟩
      · rw [e]
        have hb : ((updatedAt c s (configFromArtPollReply p) now).heap r).dmxBuffer = (c.heap r).dmxBuffer := by
          by_cases hr : r = s <;> simp [updatedAt, hr]
        rw [hb]
        refine ⟨.inl, ?_⟩
        rintro (h | ⟨_, _, h, _⟩ | ⟨_, _, h, _, hn, hm, _⟩)
        · exact h
        · cases h
        · exact absurd hm hn
      · rw [e]
        by_cases hr : r = c.next
        · subst hr
          have hn : c.next ∉ c.nodes := fun h => Nat.lt_irrefl _ (hi.lt_next _ h)
          rw [hi.fresh c.next (Nat.le_refl _)]
          simp only [addedNode, ite_true, newBuffers_get]
          constructor
          · rintro ⟨b, hb⟩
            split at hb
            · rename_i ha
              exact .inr (.inr ⟨p, now, rfl, ht, hn, by simp, ha⟩)
            · cases hb
          · rintro (⟨b, h⟩ | ⟨_, _, h, _⟩ | ⟨q, t, h, _, _, _, ha⟩)
            · cases h
            · cases h
            · cases h
              exact ⟨_, if_pos ha⟩
        · have hb : ((addedNode c (configFromArtPollReply p) now).heap r).dmxBuffer = (c.heap r).dmxBuffer := by
            simp [addedNode, hr]
          rw [hb]
          refine ⟨.inl, ?_⟩
          rintro (h | ⟨_, _, h, _⟩ | ⟨_, _, h, _, hn, hm, _⟩)
          · exact h
          · cases h
          · rcases List.mem_append.mp hm with hm | hm
            · exact absurd hm hn
            · exact absurd (List.mem_singleton.mp hm) hr
    · rw [if_neg ht]
      refine ⟨.inl, ?_⟩
      rintro (h | ⟨_, _, h, _⟩ | ⟨_, _, h, h', _⟩)
      · exact h
      · cases h
      · cases h; exact absurd h' ht

theorem split_snoc {α : Type} {os pre post : List α} {x o : α} (h : os ++ [o] = pre ++ x :: post) :
    (os = pre ∧ o = x ∧ post = []) ∨ ∃ post', os = pre ++ x :: post' := by
  rcases List.eq_nil_or_concat post with rfl | ⟨post', y, rfl⟩
  · have := List.append_inj' h rfl
    exact .inl ⟨this.1, (List.cons.inj this.2).1, rfl⟩
  · have h' : os ++ [o] = (pre ++ x :: post') ++ [y] := by rw [h]; simp
    exact .inr ⟨post', (List.append_inj' h' rfl).1⟩

theorem ready_snoc (m : Int) (os : List Op) (o : Op) (a : Address) (r : Ref) : Ready m (os ++ [o]) a r ↔
    Ready m os a r ∨ (∃ order t, o = .tick order t ∧ Routed (stateAfter m os) a r) ∨
    (∃ p t, o = .reply p t ∧ Tracked p ∧ r ∉ (stateAfter m os).nodes ∧ r ∈ ((stateAfter m os).step o).1.nodes ∧
      a ∈ (configFromArtPollReply p).outputs) := by
  constructor
  · rintro (⟨pre, p, t, post, h, h1, h2, h3, h4⟩ | ⟨pre, order, t, post, h, h1⟩)
    · rcases split_snoc h with ⟨rfl, rfl, _⟩ | ⟨post', rfl⟩
      · exact .inr (.inr ⟨p, t, rfl, h1, h2, by rw [← stateAfter_snoc]; exact h3, h4⟩)
      · exact .inl (.inl ⟨pre, p, t, post', rfl, h1, h2, h3, h4⟩)
    · rcases split_snoc h with ⟨rfl, rfl, _⟩ | ⟨post', rfl⟩
      · exact .inr (.inl ⟨order, t, rfl, h1⟩)
      · exact .inl (.inr ⟨pre, order, t, post', rfl, h1⟩)
  · rintro ((⟨pre, p, t, post, rfl, h⟩ | ⟨pre, order, t, post, rfl, h⟩) | ⟨order, t, rfl, h⟩ | ⟨p, t, rfl, h1, h2, h3, h4⟩)
    · exact .inl ⟨pre, p, t, post ++ [o], by simp, h⟩
    · exact .inr ⟨pre, order, t, post ++ [o], by simp, h⟩
    · exact .inr ⟨os, order, t, [], rfl, h⟩
    · exact .inl ⟨os, p, t, [], rfl, h1, h2, by rw [stateAfter_snoc]; exact h3, h4⟩

theorem inv_after {m : Int} {os : List Op} (h : (Ctrl.init m).CanRun os) : Inv (stateAfter m os) := (inv_init m).run os h

/-- The buffers are those the history says. -/
theorem ready_iff (m : Int) (a : Address) (r : Ref) (os : List Op) : (Ctrl.init m).CanRun os →
    ((∃ b, ((stateAfter m os).heap r).dmxBuffer.get a = some b) ↔ Ready m os a r) := by
  refine snoc_induction (P := fun os => (Ctrl.init m).CanRun os →
    ((∃ b, ((stateAfter m os).heap r).dmxBuffer.get a = some b) ↔ Ready m os a r)) ?_ ?_ os
  · intro _
    refine ⟨fun ⟨b, hb⟩ => (by cases hb), ?_⟩
    rintro (⟨pre, p, t, post, h, _⟩ | ⟨pre, order, t, post, h, _⟩) <;> simp at h
  · intro os o ih h
    obtain ⟨h1, h2⟩ := canRun_snoc h
    rw [ready_snoc, stateAfter_snoc, buf_step (inv_after h1) o h2, ih h1]

/-- The data an object holds for a universe after a history. -/
theorem data_last (m : Int) (a : Address) (r : Ref) (os : List Op) : (Ctrl.init m).CanRun os →
    (∃ xs d ys, os = xs ++ .send d a :: ys ∧ Reaches m xs a r ∧
      (bufferAt ((stateAfter m os).heap r) a).data = d ∧
      ∀ xs' d' ys', os = xs' ++ .send d' a :: ys' → Reaches m xs' a r → xs'.length ≤ xs.length) ∨
    ((bufferAt ((stateAfter m os).heap r) a).data.val = List.replicate 512 0 ∧
      ∀ xs d ys, os = xs ++ .send d a :: ys → ¬ Reaches m xs a r) := by
  refine snoc_induction (P := fun os => (Ctrl.init m).CanRun os →
    (∃ xs d ys, os = xs ++ .send d a :: ys ∧ Reaches m xs a r ∧
      (bufferAt ((stateAfter m os).heap r) a).data = d ∧
      ∀ xs' d' ys', os = xs' ++ .send d' a :: ys' → Reaches m xs' a r → xs'.length ≤ xs.length) ∨
    ((bufferAt ((stateAfter m os).heap r) a).data.val = List.replicate 512 0 ∧
      ∀ xs d ys, os = xs ++ .send d a :: ys → ¬ Reaches m xs a r)) ?_ ?_ os
  · exact fun _ => .inr ⟨rfl, fun xs d ys h => by simp at h⟩
  · intro os o ih h
    obtain ⟨h1, h2⟩ := canRun_snoc h
    by_cases hx : ∃ d, o = .send d a ∧ Reaches m os a r
    · obtain ⟨d, rfl, hre⟩ := hx
      refine .inl ⟨os, d, [], rfl, hre, ?_, fun xs' d' ys' e _ => ?_⟩
      · obtain ⟨b, hb⟩ := (ready_iff m a r os h1).mpr hre.2
        obtain ⟨_, _, _, _, _, _, _, f8⟩ := sendDMX_frame (stateAfter m os) d a
        rw [stateAfter_snoc]
        show (bufferAt (((stateAfter m os).sendDMX d a).heap r) a).data = d
        rw [bufferAt, f8, if_pos ⟨hre.1, rfl⟩, hb]
        rfl
      · have := congrArg List.length e
        simp at this
        omega
    · have hsame : (bufferAt ((stateAfter m (os ++ [o])).heap r) a).data = (bufferAt ((stateAfter m os).heap r) a).data := by
        rw [stateAfter_snoc]
        by_cases hs : SendsTo a o
        · cases o with
          | send d x =>
            have hxa : x = a := hs
            subst hxa
            obtain ⟨_, _, _, _, _, _, _, f8⟩ := sendDMX_frame (stateAfter m os) d x
            show (bufferAt (((stateAfter m os).sendDMX d x).heap r) x).data = _
            rw [bufferAt, f8]
            split
            · rename_i hr
              cases hb : ((stateAfter m os).heap r).dmxBuffer.get x with
              | none => rw [bufferAt, hb]; rfl
              | some b => exact absurd ⟨d, rfl, hr.1, (ready_iff m x r os h1).mp ⟨b, hb⟩⟩ hx
            · rfl
          | _ => exact absurd hs id
        · exact (data_step (inv_after h1) o h2 hs).1 r
      rcases ih h1 with ⟨xs, d, ys, rfl, g1, g2, g3⟩ | ⟨g1, g2⟩
      · refine .inl ⟨xs, d, ys ++ [o], by simp, g1, hsame.trans g2, fun xs' d' ys' e hr => ?_⟩
        rcases split_snoc e with ⟨rfl, rfl, _⟩ | ⟨ys'', e'⟩
        · exact absurd ⟨d', rfl, hr⟩ hx
        · exact g3 xs' d' ys'' e' hr
      · refine .inr ⟨by rw [hsame]; exact g1, fun xs' d' ys' e hr => ?_⟩
        rcases split_snoc e with ⟨rfl, rfl, _⟩ | ⟨ys'', e'⟩
        · exact hx ⟨d', rfl, hr⟩
        · exact g2 xs' d' ys'' e' hr

/-- Everything is sent at some tick. -/
theorem emitted_at (m : Int) (os : List Op) (e : Emission) (he : e ∈ ((Ctrl.init m).run os).2) :
    ∃ pre order now post, os = pre ++ .tick order now :: post ∧ e ∈ ((stateAfter m pre).step (.tick order now)).2 := by
  revert he
  refine snoc_induction (P := fun os => e ∈ ((Ctrl.init m).run os).2 → ∃ pre order now post,
    os = pre ++ .tick order now :: post ∧ e ∈ ((stateAfter m pre).step (.tick order now)).2) (fun h => by cases h) ?_ os
  intro os o ih he
  rw [(run_append _ _ _).2] at he
  rcases List.mem_append.mp he with he | he
  · obtain ⟨pre, order, now, post, rfl, h⟩ := ih he
    exact ⟨pre, order, now, post ++ [o], by simp, h⟩
  · have he : e ∈ ((stateAfter m os).step o).2 := by
      rcases List.mem_append.mp he with he | he
      · exact he
      · cases he
    cases o with
    | tick order now => exact ⟨os, order, now, [], rfl, he⟩
    | _ => cases he

end Verif.Artnet
