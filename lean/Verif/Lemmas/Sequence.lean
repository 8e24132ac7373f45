import Verif.Spec.Sequence
import Verif.Lemmas.Sizes
import Verif.Lemmas.Stamp
import Verif.Props.Rate
/-
How many datagrams a node is sent between two datagrams for the same universe.
-/
namespace Verif.Artnet
open Spec Packet Code Props

/-- No node object lists more than four output universes. -/
def Few (c : Ctrl) : Prop := ∀ r, (c.heap r).node.outputs.length ≤ 4

theorem few_init (m : Int) : Few (Ctrl.init m) := fun _ => Nat.zero_le _

theorem Few.step {c : Ctrl} (hf : Few c) (hi : Inv c) (o : Op) (ho : c.CanDo o) : Few (c.step o).1 := by
  intro r
  by_cases hr : r < (c.step o).1.next
  · rcases node_step hi o ho hr with ⟨_, h2⟩ | ⟨p, _, _, _, h2, _⟩
    · rw [h2]; exact hf r
    · rw [h2]; exact config_ports p
  · rw [(hi.step o ho).fresh r (Nat.le_of_not_lt hr)]; exact Nat.zero_le _

theorem Few.run {c : Ctrl} (hf : Few c) (hi : Inv c) (os : List Op) (h : c.CanRun os) : Few (c.run os).1 := by
  induction os generalizing c with
  | nil => exact hf
  | cons o os ih =>
    rw [(run_cons c o os).1]
    exact ih (hf.step hi o h.1) (hi.step o h.1) h.2

/-- The universes of the datagrams that a tick makes from one node object. -/
theorem tick_universes {c : Ctrl} (hi : Inv c) (order : List Address) (now : Int) (ho : c.CanDo (.tick order now)) (r : Ref) :
    (((c.step (.tick order now)).2.filter (·.ref = r)).map emAddress).Nodup ∧
    ∀ x ∈ ((c.step (.tick order now)).2.filter (·.ref = r)).map emAddress, x ∈ (c.heap r).node.outputs := by
  have t := tick_spec hi (now := now) ho
  have hnd : ((c.step (.tick order now)).2.map emAddress).Nodup := by
    rw [t.addresses]; exact (order_nodup hi ho).sublist List.filter_sublist
  refine ⟨hnd.sublist (List.filter_sublist.map _), ?_⟩
  intro x hx
  obtain ⟨e, he, rfl⟩ := List.mem_map.mp hx
  obtain ⟨he, hr⟩ := List.mem_filter.mp he
  have := (hi.out _ _ (t.each e he).2.1).2
  rw [of_decide_eq_true hr] at this
  exact this

theorem nodup_subset_length {α : Type} [DecidableEq α] {l k : List α} (hn : l.Nodup) (hs : ∀ x ∈ l, x ∈ k) : l.length ≤ k.length := by
  induction l generalizing k with
  | nil => exact Nat.zero_le _
  | cons x l ih =>
    have hx := hs x List.mem_cons_self
    rw [List.nodup_cons] at hn
    have := ih (k := k.erase x) hn.2 fun y hy => by
      rw [List.mem_erase_of_ne]
      · exact hs y (List.mem_cons_of_mem _ hy)
      · intro h; subst h; exact hn.1 hy
    rw [List.length_erase_of_mem hx] at this
    have := List.length_pos_of_mem hx
    rw [List.length_cons]
    omega

/-- A tick makes at most four datagrams from a node object, and at most three if one of its universes is not sent. -/
theorem tick_at_most {c : Ctrl} (hi : Inv c) (hf : Few c) (order : List Address) (now : Int) (ho : c.CanDo (.tick order now)) (r : Ref) :
    ((c.step (.tick order now)).2.filter (·.ref = r)).length ≤ 4 ∧
    ∀ a, Routed c a r → (∀ e ∈ (c.step (.tick order now)).2, ¬ IsFor a r e) →
      ((c.step (.tick order now)).2.filter (·.ref = r)).length ≤ 3 := by
  obtain ⟨h1, h2⟩ := tick_universes hi order now ho r
  refine ⟨?_, ?_⟩
  · have := nodup_subset_length h1 h2
    rw [List.length_map] at this
    exact Nat.le_trans this (hf r)
  · intro a hr hn
    have : (a :: ((c.step (.tick order now)).2.filter (·.ref = r)).map emAddress).length ≤ (c.heap r).node.outputs.length := by
      refine nodup_subset_length (List.nodup_cons.mpr ⟨?_, h1⟩) ?_
      · intro h
        obtain ⟨e, he, hea⟩ := List.mem_map.mp h
        obtain ⟨he, hr⟩ := List.mem_filter.mp he
        exact hn e he ⟨of_decide_eq_true hr, hea⟩
      · intro x hx
        rcases List.mem_cons.mp hx with rfl | hx
        · exact (hi.out _ _ hr).2
        · exact h2 x hx
    rw [List.length_cons, List.length_map] at this
    have := hf r
    omega

/-- While nothing is sent for a universe that stays routed, its time stamp stays, every tick is at most 250 ms later, and
at most three datagrams per tick go to the node. -/
theorem quiet_universe {a : Address} {r : Ref} {t1 : Int} (os : List Op) : ∀ {c : Ctrl}, Inv c → Few c → c.CanRun os →
    r < c.next → (bufferAt (c.heap r) a).lastUpdate = t1 → StaysRouted a r c os →
    (∀ e ∈ (c.run os).2, ¬ IsFor a r e) →
    (∀ t ∈ tickTimes os, t ≤ t1 + 250000000) ∧
    ((c.run os).2.filter (·.ref = r)).length ≤ 3 * (tickTimes os).length := by
  induction os with
  | nil => intro c _ _ _ _ _ _ _; exact ⟨fun t ht => absurd ht (by simp [tickTimes]), Nat.zero_le _⟩
  | cons o os ih =>
    intro c hi hf h hlt hb hs hn
    rw [(run_cons c o os).2] at hn ⊢
    have hn1 : ∀ e ∈ (c.step o).2, ¬ IsFor a r e := fun e he => hn e (List.mem_append_left _ he)
    have hn2 : ∀ e ∈ ((c.step o).1.run os).2, ¬ IsFor a r e := fun e he => hn e (List.mem_append_right _ he)
    have go (hlt' : r < (c.step o).1.next) (hb' : (bufferAt ((c.step o).1.heap r) a).lastUpdate = t1) :=
      ih (hi.step o h.1) (hf.step hi o h.1) h.2 hlt' hb' hs.2 hn2
    have quiet (h1 : ¬ IsTick o) (h2 : ∀ x, ¬ SendsTo x o) (h3 : tickTimes (o :: os) = tickTimes os) :
        (∀ t ∈ tickTimes (o :: os), t ≤ t1 + 250000000) ∧
        (((c.step o).2 ++ ((c.step o).1.run os).2).filter (·.ref = r)).length ≤ 3 * (tickTimes (o :: os)).length := by
      obtain ⟨q1, q2, q3, _⟩ := quiet_step hi o h.1 h1 h2
      rw [h3, q2, List.nil_append]
      exact go (Nat.lt_of_lt_of_le hlt q1) (by rw [bufferAt, q3 r hlt]; exact hb)
    cases o with
    | reply p now => exact quiet id (fun _ => id) rfl
    | gc clock => exact quiet id (fun _ => id) rfl
    | restart => exact quiet id (fun _ => id) rfl
    | send d x =>
      obtain ⟨f1, _, _, _, _, _, _, f8⟩ := sendDMX_frame c d x
      refine go (by show r < (c.sendDMX d x).next; rw [f1]; exact hlt) ?_
      show (bufferAt ((c.sendDMX d x).heap r) a).lastUpdate = t1
      rw [bufferAt, f8]
      rw [bufferAt] at hb
      split
      · rename_i hx
        rw [hx.2] at hb
        cases hg : (c.heap r).dmxBuffer.get x with
        | none => rw [hg] at hb; exact hb
        | some b => rw [hg] at hb; exact hb
      · exact hb
    | tick order now =>
      have t := tick_spec hi (now := now) h.1
      have hr : Routed c a r := hs.1 trivial
      have hmem : a ∈ order := h.1.mem_iff.mpr ((GoMap.mem_keys_iff _ _).mpr ⟨_, hr⟩)
      have hnd : ¬ Due (bufferAt (c.heap r) a) now c.maxFPS := by
        intro hd
        have : a ∈ (c.step (.tick order now)).2.map emAddress := by
          rw [t.addresses]
          refine List.mem_filter.mpr ⟨hmem, ?_⟩
          simp only [dueIn, show c.output.get a = some r from hr]
          exact decide_eq_true hd
        obtain ⟨e, he, hea⟩ := List.mem_map.mp this
        refine hn1 e he ⟨?_, hea⟩
        have := (t.each e he).2.1
        rw [hea] at this
        exact (Option.some.inj (hr.symm.trans this)).symm
      have hle : now ≤ t1 + 250000000 := by
        rw [← hb]
        apply Classical.byContradiction
        intro h'
        exact hnd (.inr (by omega))
      obtain ⟨g1, g2⟩ := go (by rw [t.next]; exact hlt) (by
        rw [bufferAt, t.buffer, if_pos ⟨hmem, hr⟩, ticked, if_neg hnd]; exact hb)
      refine ⟨?_, ?_⟩
      · intro u hu
        rcases List.mem_cons.mp hu with rfl | hu
        · exact hle
        · exact g1 u hu
      · have := (tick_at_most hi hf order now h.1 r).2 a hr hn1
        rw [List.filter_append, List.length_append]
        show _ ≤ 3 * ((tickTimes os).length + 1)
        omega

theorem spaced_append_left {d : Int} {l l' : List Int} (h : Spaced d (l ++ l')) : Spaced d l := by
  induction l with
  | nil => trivial
  | cons x l ih =>
    cases l with
    | nil => trivial
    | cons y l => exact ⟨h.1, ih h.2⟩

/-- Element `i` of a list of consecutive numbers. -/
theorem seqFrom_at {s : UInt8} {n : Nat} {l : List Emission} (h : l.map emSequence = seqFrom s n) {x y : List Emission}
    {e : Emission} (he : l = x ++ e :: y) : emSequence e = s + UInt8.ofNat (x.length + 1) := by
  have h1 : (l.map emSequence)[x.length]? = some (emSequence e) := by rw [he]; simp
  rw [h, seqFrom_eq, List.getElem?_map, Option.map_eq_some_iff] at h1
  obtain ⟨j, hj, h2⟩ := h1
  rw [List.getElem?_eq_some_iff] at hj
  obtain ⟨_, hj⟩ := hj
  simp only [List.getElem_range] at hj
  rw [← h2, hj]

end Verif.Artnet
