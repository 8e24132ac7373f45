import Verif.Model.Slice
/-
Slices of arrays and lists.
-/
namespace Verif.Artnet
open Packet Code

/-! ### The list that a slice stands for -/

/-- The slice lists `l`: it lies within its array, and its elements are not nil. -/
structure Lists (m : Arrays) (s : Slice) (l : List Ref) : Prop where
  arr : s.arr < m.length
  slots : s.slots m = l.map some
  len : s.len = l.length

theorem Lists.array {m : Arrays} {s : Slice} {l : List Ref} (h : Lists m s l) :
    ∃ rest, m.getD s.arr [] = l.map some ++ rest := by
  refine ⟨(m.getD s.arr []).drop s.len, ?_⟩
  have := h.slots
  rw [Slice.slots] at this
  rw [← this, List.take_append_drop]

theorem lists_of {m : Arrays} {s : Slice} {l : List Ref} {rest : List (Option Ref)} (ha : s.arr < m.length)
    (hl : s.len = l.length) (h : m.getD s.arr [] = l.map some ++ rest) : Lists m s l := by
  refine ⟨ha, ?_, hl⟩
  rw [Slice.slots, h, hl, ← List.length_map (f := some) (as := l), List.take_left]

theorem getD_set {m : Arrays} {a b : Nat} {x : List (Option Ref)} (ha : a < m.length) :
    (m.set a x).getD b [] = if b = a then x else m.getD b [] := by
  simp only [List.getD_eq_getElem?_getD, List.getElem?_set]
  by_cases hb : b = a
  · subst hb; simp [ha]
  · simp [Ne.symm hb, hb]

/-- The array after `append`, if there is room. -/
theorem append_room {m : Arrays} {s : Slice} {l : List Ref} {r : Ref} {room : Nat} {x : Option Ref} {rest : List (Option Ref)}
    (h : Lists m s l) (ha : m.getD s.arr [] = l.map some ++ x :: rest) :
    s.append m r room = (m.set s.arr (l.map some ++ some r :: rest), ⟨s.arr, s.len + 1⟩) := by
  simp only [Slice.append, ha, h.len]
  rw [if_pos (by simp)]
  congr 2
  rw [List.set_append]
  simp

theorem append_full {m : Arrays} {s : Slice} {l : List Ref} {r : Ref} {room : Nat}
    (h : Lists m s l) (ha : m.getD s.arr [] = l.map some) :
    s.append m r room = (m ++ [l.map some ++ some r :: List.replicate room none], ⟨m.length, s.len + 1⟩) := by
  simp only [Slice.append, ha, h.len]
  rw [if_neg (by simp), ← List.length_map (f := some) (as := l), List.take_length]

theorem lists_append {m : Arrays} {s : Slice} {l : List Ref} (h : Lists m s l) (r : Ref) (room : Nat) :
    Lists (s.append m r room).1 (s.append m r room).2 (l ++ [r]) := by
  obtain ⟨rest, ha⟩ := h.array
  cases rest with
  | cons x rest =>
    rw [append_room h ha]
    exact lists_of (rest := rest) (by simpa using h.arr) (by simp [h.len]) (by rw [getD_set h.arr, if_pos rfl]; simp)
  | nil =>
    rw [append_full h (by simpa using ha)]
    exact lists_of (rest := List.replicate room none) (by simp) (by simp [h.len]) (by simp)

/-- The array after a removal. -/
theorem remove_array {m : Arrays} {s : Slice} {l : List Ref} {i : Nat} {rest : List (Option Ref)} (h : Lists m s l)
    (ha : m.getD s.arr [] = l.map some ++ rest) (hi : i < l.length) :
    s.remove m i = (m.set s.arr ((l.eraseIdx i).map some ++ (l.drop (l.length - 1)).map some ++ rest), ⟨s.arr, s.len - 1⟩) := by
  simp only [Slice.remove, ha, h.len]
  congr 2
  have h1 : (l.map some ++ rest).take i = (l.take i).map some := by
    rw [List.take_append_of_le_length (by simp; omega), List.map_take]
  have h2 : (l.map some ++ rest).take l.length = l.map some := by
    rw [← List.length_map (f := some) (as := l), List.take_left]
  have h3 : (l.map some ++ rest).drop (l.length - 1) = (l.drop (l.length - 1)).map some ++ rest := by
    rw [List.drop_append_of_le_length (by simp), List.map_drop]
  rw [h1, h2, h3, List.eraseIdx_eq_take_drop_succ]
  simp

theorem lists_remove {m : Arrays} {s : Slice} {l : List Ref} (h : Lists m s l) {i : Nat} (hi : i < l.length) :
    Lists (s.remove m i).1 (s.remove m i).2 (l.eraseIdx i) := by
  obtain ⟨rest, ha⟩ := h.array
  rw [remove_array h ha hi]
  exact lists_of (rest := (l.drop (l.length - 1)).map some ++ rest) (by simpa using h.arr)
    (by simp [h.len, List.length_eraseIdx, hi]) (by rw [getD_set h.arr, if_pos rfl]; simp)

/-! ### The Controller -/

theorem pointers_eq {st : Store} {l : List Ref} (h : Lists st.arrays st.nodes l) : st.pointers = .ok l := by
  rw [Store.pointers, h.slots]
  clear h
  induction l with
  | nil => rfl
  | cons r l ih =>
    rw [List.map_cons, List.mapM_cons, ih]
    rfl

/-- The store shows the Controller `c`. -/
structure Shows (st : Store) (c : Ctrl) : Prop where
  heap : st.heap = c.heap
  next : st.next = c.next
  nodes : Lists st.arrays st.nodes c.nodes
  output : st.output = c.output
  input : st.input = c.input
  maxFPS : st.maxFPS = c.maxFPS

theorem shows_init (m : Int) : Shows (Store.init m) (Ctrl.init m) :=
  ⟨rfl, rfl, ⟨Nat.zero_lt_one, rfl, rfl⟩, rfl, rfl, rfl⟩

/-- How the arrays and the slice change: nodes are appended and removed. -/
inductive Edits (m : Arrays) (s : Slice) (n : Ref) : Arrays → Slice → Ref → Prop
  | refl : Edits m s n m s n
  | add {m' : Arrays} {s' : Slice} {n' : Ref} (room : Nat) :
    Edits m s n m' s' n' → Edits m s n (s'.append m' n' room).1 (s'.append m' n' room).2 (n' + 1)
  | cut {m' : Arrays} {s' : Slice} {n' : Ref} (i : Nat) (hi : i < s'.len) :
    Edits m s n m' s' n' → Edits m s n (s'.remove m' i).1 (s'.remove m' i).2 n'

theorem Edits.trans {m1 m2 m3 : Arrays} {s1 s2 s3 : Slice} {n1 n2 n3 : Ref} (h1 : Edits m1 s1 n1 m2 s2 n2)
    (h2 : Edits m2 s2 n2 m3 s3 n3) : Edits m1 s1 n1 m3 s3 n3 := by
  induction h2 with
  | refl => exact h1
  | add room _ ih => exact .add room ih
  | cut i hi _ ih => exact .cut i hi ih

theorem shows_update {st : Store} {c : Ctrl} (h : Shows st c) (cfg : NodeConfig) (now : Int) (room : Nat) :
    ∃ st', st.updateNode cfg now room = .ok st' ∧ Shows st' (c.updateNode cfg now) ∧
      Edits st.arrays st.nodes st.next st'.arrays st'.nodes st'.next := by
  unfold Store.updateNode Ctrl.updateNode
  rw [pointers_eq h.nodes]
  simp only [bind, Except.bind, pure, Except.pure, h.heap]
  cases c.nodes.find? (fun r => cfg.ip == (c.heap r).node.ip) with
  | some r =>
    dsimp only
    refine ⟨_, rfl, ⟨?_, ?_, ?_, ?_, ?_, ?_⟩, .refl⟩
    · simp only [Ctrl.store]
    · exact h.next
    · exact h.nodes
    · simp only [h.output]
    · simp only [h.input]
    · exact h.maxFPS
  | none =>
    dsimp only
    refine ⟨_, rfl, ⟨?_, ?_, ?_, ?_, ?_, ?_⟩, ?_⟩
    · simp only [Ctrl.store, h.next]
    · simp only [h.next]
    · simp only [Ctrl.store, h.next]
      exact lists_append h.nodes _ _
    · simp only [Ctrl.store, h.next, h.output]
    · simp only [Ctrl.store, h.next, h.input]
    · simp only [Ctrl.store, h.maxFPS]
    · exact .add room (.refl)

theorem idxL_lt {α : Type} {l : List α} {i : Nat} (h : i < l.length) : idxL l i = .ok l[i] := by
  simp [idxL, h]

theorem shows_gc {st : Store} {c : Ctrl} (h : Shows st c) (clock : Nat → Int) (n k : Nat) (hn : st.nodes.len < n) :
    ∃ st', Store.gcLoop clock n k st = .ok st' ∧ Shows st' (c.gcFrom clock k) ∧
      Edits st.arrays st.nodes st.next st'.arrays st'.nodes st'.next := by
  induction n generalizing st c k with
  | zero => omega
  | succ n ih =>
    rw [Store.gcLoop, pointers_eq h.nodes, Ctrl.gcFrom]
    simp only [bind, Except.bind, pure, Except.pure, h.heap]
    split
    · rename_i k' hk
      split
      · exact ⟨st, rfl, h, .refl⟩
      · rename_i i k'' hk'
        rw [hk] at hk'
        cases hk'
    · rename_i i k' hk
      have hi := gcFind_lt c.heap clock c.nodes _ i (by rw [hk])
      rw [idxL_lt hi]
      dsimp only
      split
      · rename_i k'' hk'
        rw [hk] at hk'
        cases hk'
      · rename_i i' k'' hk'
        rw [hk] at hk'
        cases hk'
        have hlen := h.nodes.len
        obtain ⟨st', h1, h2, h3⟩ := ih (st := { st with
            arrays := (st.nodes.remove st.arrays i).1
            nodes := (st.nodes.remove st.arrays i).2
            output := delAll st.output (c.heap c.nodes[i]).node.outputs
            input := delAll st.input (c.heap c.nodes[i]).node.inputs })
          (c := { c with
            output := delAll c.output (c.heap c.nodes[i]).node.outputs
            input := delAll c.input (c.heap c.nodes[i]).node.inputs
            nodes := c.nodes.eraseIdx i })
          ⟨h.heap, h.next, lists_remove h.nodes hi, by rw [h.output], by rw [h.input], h.maxFPS⟩ k' (by
            simp only [Slice.remove]; omega)
        rw [h.heap] at h1
        exact ⟨st', h1, h2, Edits.trans (.cut i (by omega) (.refl)) h3⟩

/-! ### The operations that do not use Nodes -/

/-- The Controller with another list of nodes. -/
def Ctrl.listing (c : Ctrl) (l : List Ref) : Ctrl := { c with nodes := l }

theorem update_listing (c : Ctrl) (l : List Ref) (r : Ref) (a : Address) (now : Int) :
    (c.listing l).update r a now = ((c.update r a now).1.listing l, (c.update r a now).2) := by
  simp only [Ctrl.update, Ctrl.listing, Ctrl.store]
  split <;> rfl

theorem ensure_listing (c : Ctrl) (l : List Ref) (a : Address) (r : Ref) :
    (c.listing l).ensureBuffer a r = (c.ensureBuffer a r).listing l := by
  simp only [Ctrl.ensureBuffer, Ctrl.listing, Ctrl.store]
  split <;> rfl

theorem listing_heap (c : Ctrl) (l : List Ref) : (c.listing l).heap = c.heap := rfl

theorem listing_maxFPS (c : Ctrl) (l : List Ref) : (c.listing l).maxFPS = c.maxFPS := rfl

theorem tickAt_listing (c : Ctrl) (l : List Ref) (a : Address) (r : Ref) (now : Int) :
    (c.listing l).tickAt a r now = ((c.tickAt a r now).1.listing l, (c.tickAt a r now).2) := by
  simp only [Ctrl.tickAt, ensure_listing, update_listing, listing_heap, listing_maxFPS]
  generalize c.ensureBuffer a r = d
  by_cases h1 : ((((d.heap r).dmxBuffer.get a).getD DmxBuffer.zero).stale = true ∧
      (((d.heap r).dmxBuffer.get a).getD DmxBuffer.zero).lastUpdate < now - d.maxFPS)
  · simp only [if_pos h1]
    cases h2 : (d.update r a now).2.2
    · simp only [update_listing, listing_heap]
      split
      · split <;> rfl
      · rfl
    · simp only [update_listing, listing_heap]
      split
      · split <;> rfl
      · rfl
  · simp only [if_neg h1, update_listing, listing_heap]
    split
    · split <;> rfl
    · rfl

theorem tickOver_listing (c : Ctrl) (l : List Ref) (order : List Address) (now : Int) :
    (c.listing l).tickOver order now = ((c.tickOver order now).1.listing l, (c.tickOver order now).2) := by
  induction order generalizing c with
  | nil => rfl
  | cons a order ih =>
    simp only [Ctrl.tickOver, show (c.listing l).output = c.output from rfl]
    split
    · exact ih c
    · simp only [tickAt_listing, ih]

theorem update_next (c : Ctrl) (r : Ref) (a : Address) (now : Int) : (c.update r a now).1.next = c.next := by
  simp only [Ctrl.update, Ctrl.store]
  split <;> rfl

theorem ensure_next (c : Ctrl) (a : Address) (r : Ref) : (c.ensureBuffer a r).next = c.next := by
  simp only [Ctrl.ensureBuffer, Ctrl.store]
  split <;> rfl

theorem tickAt_next (c : Ctrl) (a : Address) (r : Ref) (now : Int) : (c.tickAt a r now).1.next = c.next := by
  rw [← ensure_next c a r]
  simp only [Ctrl.tickAt]
  generalize c.ensureBuffer a r = d
  repeat' split
  all_goals first | rfl | simp only [update_next] | simp_all [update_next]

theorem tickOver_lists (c : Ctrl) (order : List Address) (now : Int) :
    (c.tickOver order now).1.nodes = c.nodes ∧ (c.tickOver order now).1.next = c.next := by
  refine ⟨congrArg (fun x => x.1.nodes) (tickOver_listing c c.nodes order now), ?_⟩
  induction order generalizing c with
  | nil => rfl
  | cons a order ih =>
    simp only [Ctrl.tickOver]
    split
    · exact ih c
    · rw [ih, tickAt_next]

theorem shows_other {st : Store} {c : Ctrl} (h : Shows st c) {o : Op} (ho : (∃ d a, o = .send d a) ∨ (∃ l t, o = .tick l t) ∨ o = .restart) :
    Shows (st.other o).1 (c.step o).1 ∧ (st.other o).2 = (c.step o).2 ∧
      Edits st.arrays st.nodes st.next (st.other o).1.arrays (st.other o).1.nodes (st.other o).1.next := by
  have hc : (⟨st.heap, st.next, [], st.output, st.input, st.maxFPS⟩ : Ctrl) = c.listing [] := by
    simp [Ctrl.listing, h.heap, h.next, h.output, h.input, h.maxFPS]
  simp only [Store.other, hc]
  have hn := h.nodes
  have hx := h.next
  have he : Edits st.arrays st.nodes st.next st.arrays st.nodes c.next := by rw [← hx]; exact .refl
  rcases ho with ⟨d, a, rfl⟩ | ⟨l, t, rfl⟩ | rfl
  · simp only [Ctrl.step, Ctrl.sendDMX, show (c.listing []).output = c.output from rfl]
    split
    · exact ⟨⟨rfl, rfl, hn, rfl, rfl, rfl⟩, trivial, he⟩
    · exact ⟨⟨rfl, rfl, hn, rfl, rfl, rfl⟩, trivial, he⟩
  · obtain ⟨h1, h2⟩ := tickOver_lists c l t
    simp only [Ctrl.step, tickOver_listing]
    refine ⟨⟨rfl, rfl, by rw [h1]; exact hn, rfl, rfl, rfl⟩, trivial, ?_⟩
    simp only [Ctrl.listing, h2]
    exact he
  · exact ⟨⟨rfl, rfl, hn, rfl, rfl, rfl⟩, rfl, he⟩

theorem shows_step {st : Store} {c : Ctrl} (h : Shows st c) (o : Op) (room : Nat) :
    ∃ st', st.step o room = .ok (st', (c.step o).2) ∧ Shows st' (c.step o).1 ∧
      Edits st.arrays st.nodes st.next st'.arrays st'.nodes st'.next := by
  cases o with
  | reply p now =>
    simp only [Store.step, Ctrl.step, Ctrl.pollReply]
    split
    · exact ⟨st, rfl, h, .refl⟩
    · split
      · exact ⟨st, rfl, h, .refl⟩
      · obtain ⟨st', h1, h2, h3⟩ := shows_update h (configFromArtPollReply p) now room
        exact ⟨st', by rw [h1]; rfl, h2, h3⟩
  | gc clock =>
    obtain ⟨st', h1, h2, h3⟩ := shows_gc h clock (st.nodes.len + 1) 0 (by omega)
    exact ⟨st', by simp only [Store.step, Store.gcNode, h1]; rfl, h2, h3⟩
  | send d a =>
    obtain ⟨h1, h2, h3⟩ := shows_other h (o := .send d a) (.inl ⟨d, a, rfl⟩)
    exact ⟨_, by simp only [Store.step, ← h2]; rfl, h1, h3⟩
  | tick l t =>
    obtain ⟨h1, h2, h3⟩ := shows_other h (o := .tick l t) (.inr (.inl ⟨l, t, rfl⟩))
    exact ⟨_, by simp only [Store.step, ← h2]; rfl, h1, h3⟩
  | restart =>
    obtain ⟨h1, h2, h3⟩ := shows_other h (o := .restart) (.inr (.inr rfl))
    exact ⟨_, by simp only [Store.step, ← h2]; rfl, h1, h3⟩

theorem shows_run {st : Store} {c : Ctrl} (h : Shows st c) (os : List (Op × Nat)) :
    ∃ st', st.run os = .ok (st', (c.run (os.map Prod.fst)).2) ∧ Shows st' (c.run (os.map Prod.fst)).1 ∧
      Edits st.arrays st.nodes st.next st'.arrays st'.nodes st'.next := by
  induction os generalizing st c with
  | nil => exact ⟨st, rfl, h, .refl⟩
  | cons x os ih =>
    obtain ⟨o, room⟩ := x
    obtain ⟨st1, h1, h2, h3⟩ := shows_step h o room
    obtain ⟨st2, h4, h5, h6⟩ := ih h2
    refine ⟨st2, ?_, h5, h3.trans h6⟩
    simp only [Store.run, h1, bind, Except.bind, h4, pure, Except.pure]
    rfl

/-! ### A slice that was read before -/

/-- An array that Nodes has left, or another array, is not written to any more. -/
theorem edits_other {m m' : Arrays} {s s' : Slice} {n n' : Ref} (h : Edits m s n m' s' n') {l : List Ref} (hl : Lists m s l) {a : Nat}
    (ha : a < m.length) (hne : s.arr ≠ a) :
    m'.getD a [] = m.getD a [] ∧ s'.arr ≠ a ∧ a < m'.length ∧ ∃ l', Lists m' s' l' := by
  induction h with
  | refl => exact ⟨rfl, hne, ha, l, hl⟩
  | @add m' s' n' room _ ih =>
    obtain ⟨h1, h2, h3, l', h4⟩ := ih
    refine ⟨?_, ?_, ?_, _, lists_append h4 _ room⟩
    all_goals
      obtain ⟨rest, hr⟩ := h4.array
      cases rest with
      | cons x rest =>
        rw [append_room h4 hr]
        first
          | (rw [getD_set h4.arr, if_neg (Ne.symm h2)]; exact h1)
          | exact h2
          | (rw [List.length_set]; exact h3)
      | nil =>
        rw [append_full h4 (by simpa using hr)]
        first
          | (rw [← h1]; simp [List.getElem?_append_left h3]; done)
          | (show m'.length ≠ a; omega)
          | (simp; omega)
  | @cut m' s' n' i hi _ ih =>
    obtain ⟨h1, h2, h3, l', h4⟩ := ih
    refine ⟨?_, ?_, ?_, _, lists_remove h4 (i := i) (by rw [← h4.len]; exact hi)⟩
    · simp only [Slice.remove]
      rw [getD_set h4.arr, if_neg (Ne.symm h2)]
      exact h1
    · exact h2
    · simp only [Slice.remove, List.length_set]
      exact h3

/-- What holds of the slice `s0`, read when it listed `l0` and `n0` nodes had been seen. -/
structure Kept (s0 : Slice) (l0 : List Ref) (n0 : Ref) (m : Arrays) (s : Slice) (n : Ref) (l : List Ref) : Prop where
  lists : Lists m s l
  nodup : l.Nodup
  lt : ∀ r ∈ l, r < n
  grow : n0 ≤ n
  arr : s0.arr < m.length
  whole : s0.len ≤ (m.getD s0.arr []).length
  seen : ∀ x ∈ s0.slots m, ∃ r, r < n ∧ x = some r
  same : (∀ r ∈ l0, r ∈ l) → s0.slots m = l0.map some ∧ (s.arr = s0.arr → l0 <+: l)

/-- A step that leaves the array of the old slice alone. -/
theorem Kept.away {s0 s s' : Slice} {l0 l l' : List Ref} {n0 n n' : Ref} {m m' : Arrays} (h : Kept s0 l0 n0 m s n l)
    (hl : Lists m' s' l') (hd : l'.Nodup) (hlt : ∀ r ∈ l', r < n') (hn : n ≤ n') (hm : m.length ≤ m'.length)
    (ha : m'.getD s0.arr [] = m.getD s0.arr []) (hs : s'.arr ≠ s0.arr) (hold : (∀ r ∈ l0, r ∈ l') → ∀ r ∈ l0, r ∈ l) :
    Kept s0 l0 n0 m' s' n' l' := by
  refine ⟨hl, hd, hlt, Nat.le_trans h.grow hn, Nat.lt_of_lt_of_le h.arr hm, by rw [ha]; exact h.whole, ?_, ?_⟩
  · intro x hx
    rw [Slice.slots, ha] at hx
    obtain ⟨r, h1, h2⟩ := h.seen x hx
    exact ⟨r, Nat.lt_of_lt_of_le h1 hn, h2⟩
  · intro hx
    refine ⟨?_, fun h1 => absurd h1 hs⟩
    rw [Slice.slots, ha]
    exact (h.same (hold hx)).1

/-- A step that rewrites the first part of the array of the old slice. -/
theorem Kept.within {s0 s s' : Slice} {l0 l l' b : List Ref} {n0 n n' : Ref} {m m' : Arrays} {rest : List (Option Ref)}
    (h : Kept s0 l0 n0 m s n l) (hlen : s0.len = l0.length)
    (hl : Lists m' s' l') (hd : l'.Nodup) (hlt : ∀ r ∈ l', r < n') (hn : n ≤ n') (hm : m.length ≤ m'.length)
    (ha : ∃ y, y.length = b.length ∧ m.getD s0.arr [] = y ++ rest)
    (hb : m'.getD s0.arr [] = b.map some ++ rest) (hlb : ∀ r ∈ b, r < n')
    (hold : (∀ r ∈ l0, r ∈ l') → l0 <+: l' ∧ l0 <+: b) : Kept s0 l0 n0 m' s' n' l' := by
  obtain ⟨y, hy, ha⟩ := ha
  refine ⟨hl, hd, hlt, Nat.le_trans h.grow hn, Nat.lt_of_lt_of_le h.arr hm, ?_, ?_, ?_⟩
  · have := h.whole
    rw [ha] at this
    rw [hb]
    simpa [hy] using this
  · intro x hx
    rw [Slice.slots, hb, List.take_append] at hx
    rcases List.mem_append.mp hx with hx | hx
    · obtain ⟨r, hr, rfl⟩ := List.mem_map.mp (List.mem_of_mem_take hx)
      exact ⟨r, hlb r hr, rfl⟩
    · obtain ⟨r, h1, h2⟩ := h.seen x (by
        rw [Slice.slots, ha, List.take_append, hy]
        rw [List.length_map] at hx
        exact List.mem_append.mpr (.inr hx))
      exact ⟨r, Nat.lt_of_lt_of_le h1 hn, h2⟩
  · intro hx
    obtain ⟨h1, t, ht⟩ := hold hx
    refine ⟨?_, fun _ => h1⟩
    rw [Slice.slots, hb, ← ht, hlen, List.map_append, List.append_assoc, ← List.length_map (f := some) (as := l0), List.take_left]

theorem kept {m0 m : Arrays} {s0 s : Slice} {n0 n : Ref} (h : Edits m0 s0 n0 m s n) {l0 : List Ref} (hl : Lists m0 s0 l0)
    (hd : l0.Nodup) (hlt : ∀ r ∈ l0, r < n0) : ∃ l, Kept s0 l0 n0 m s n l := by
  induction h with
  | refl =>
    refine ⟨l0, hl, hd, hlt, Nat.le_refl _, hl.arr, ?_, ?_, fun _ => ⟨hl.slots, fun _ => List.prefix_refl _⟩⟩
    · obtain ⟨rest, hr⟩ := hl.array
      rw [hr, hl.len]; simp
    · intro x hx
      rw [hl.slots] at hx
      obtain ⟨r, hr, rfl⟩ := List.mem_map.mp hx
      exact ⟨r, hlt r hr, rfl⟩
  | @add m s n room _ ih =>
    obtain ⟨l, h⟩ := ih
    have hold : (∀ r ∈ l0, r ∈ l ++ [n]) → ∀ r ∈ l0, r ∈ l := by
      intro hx r hr
      rcases List.mem_append.mp (hx r hr) with h1 | h1
      · exact h1
      · have h1 := List.mem_singleton.mp h1
        subst h1
        exact absurd (Nat.lt_of_lt_of_le (hlt r hr) h.grow) (Nat.lt_irrefl _)
    have hnd : (l ++ [n]).Nodup := by
      rw [List.nodup_append]
      refine ⟨h.nodup, by simp, ?_⟩
      intro a ha b hb hab
      have hb := List.mem_singleton.mp hb
      subst hb hab
      exact absurd (h.lt _ ha) (Nat.lt_irrefl _)
    have hlt' : ∀ r ∈ l ++ [n], r < n + 1 := by
      intro r hr
      rcases List.mem_append.mp hr with h1 | h1
      · exact Nat.lt_succ_of_lt (h.lt r h1)
      · have h1 := List.mem_singleton.mp h1
        subst h1
        exact Nat.lt_succ_self _
    have hlists := lists_append h.lists n room
    obtain ⟨rest, hr⟩ := h.lists.array
    refine ⟨l ++ [n], ?_⟩
    cases rest with
    | cons x rest =>
      rw [append_room h.lists hr] at hlists ⊢
      dsimp only at hlists ⊢
      by_cases ha : s0.arr = s.arr
      · refine h.within (b := l ++ [n]) (rest := rest) (s' := ⟨s.arr, s.len + 1⟩) hl.len hlists hnd hlt' (Nat.le_succ n) (by simp) ⟨l.map some ++ [x], by simp, by rw [ha, hr]; simp⟩ (by rw [getD_set h.lists.arr, if_pos ha]; simp) hlt' ?_
        · intro hx
          obtain ⟨t, ht⟩ := (h.same (hold hx)).2 ha.symm
          exact ⟨⟨t ++ [n], by rw [← ht]; simp⟩, ⟨t ++ [n], by rw [← ht]; simp⟩⟩
      · exact h.away (s' := ⟨s.arr, s.len + 1⟩) hlists hnd hlt' (Nat.le_succ n) (by simp) (by rw [getD_set h.lists.arr, if_neg ha]) (Ne.symm ha) hold
    | nil =>
      rw [append_full h.lists (by simpa using hr)] at hlists ⊢
      have := h.arr
      exact h.away (s' := ⟨m.length, s.len + 1⟩) hlists hnd hlt' (Nat.le_succ n) (by simp) (by simp [List.getElem?_append_left h.arr])
        (show m.length ≠ s0.arr by omega) hold
  | @cut m s n i hi _ ih =>
    obtain ⟨l, h⟩ := ih
    have hi' : i < l.length := by rw [← h.lists.len]; exact hi
    have hlists := lists_remove h.lists hi'
    have hsub : ∀ r ∈ l.eraseIdx i, r ∈ l := fun r hr => (List.eraseIdx_sublist l i).subset hr
    have hnd : (l.eraseIdx i).Nodup := (List.eraseIdx_sublist l i).nodup h.nodup
    have hlt' : ∀ r ∈ l.eraseIdx i, r < n := fun r hr => h.lt r (hsub r hr)
    obtain ⟨rest, hr⟩ := h.lists.array
    refine ⟨l.eraseIdx i, ?_⟩
    rw [remove_array h.lists hr hi'] at hlists ⊢
    dsimp only at hlists ⊢
    by_cases ha : s0.arr = s.arr
    · refine h.within (b := l.eraseIdx i ++ l.drop (l.length - 1)) (rest := rest) (s' := ⟨s.arr, s.len - 1⟩) hl.len hlists hnd hlt' (Nat.le_refl n) (by simp)
        ⟨l.map some, by simp [List.length_eraseIdx, hi'], by rw [ha, hr]⟩ (by rw [getD_set h.lists.arr, if_pos ha]; simp) ?_ ?_
      · intro r hr
        rcases List.mem_append.mp hr with h1 | h1
        · exact hlt' r h1
        · exact h.lt r (List.mem_of_mem_drop h1)
      · intro hx
        obtain ⟨t, ht⟩ := (h.same (fun r hr => hsub r (hx r hr))).2 ha.symm
        have hge : l0.length ≤ i := by
          apply Nat.le_of_not_lt
          intro hlt0
          have h1 : l[i] ∈ l0 := by
            have : l[i] = l0[i] := by simp [← ht, List.getElem_append_left hlt0]
            rw [this]; exact List.getElem_mem _
          have h2 := hx _ h1
          rw [List.mem_eraseIdx_iff_getElem] at h2
          obtain ⟨j, hj, hne, he⟩ := h2
          exact hne ((List.getElem_inj h.nodup).mp he)
        have he : l.eraseIdx i = l0 ++ t.eraseIdx (i - l0.length) := by
          rw [← ht, List.eraseIdx_append_of_length_le hge]
        exact ⟨⟨_, he.symm⟩, ⟨t.eraseIdx (i - l0.length) ++ l.drop (l.length - 1), by rw [he]; simp⟩⟩
    · exact h.away (s' := ⟨s.arr, s.len - 1⟩) hlists hnd hlt' (Nat.le_refl n) (by simp) (by rw [getD_set h.lists.arr, if_neg ha]) (Ne.symm ha)
        (fun hx r hr => hsub r (hx r hr))

/-- Without a new node: the array holds what is left of the list and then pointers of the list, the last of them in its place. -/
theorem edits_cuts {m m' : Arrays} {s s' : Slice} {n n' : Ref} (h : Edits m s n m' s' n') {l : List Ref} (hl : Lists m s l)
    {rest : List (Option Ref)} (hr : m.getD s.arr [] = l.map some ++ rest) :
    n ≤ n' ∧ (n' = n → ∃ l' tail, Lists m' s' l' ∧ s'.arr = s.arr ∧ l'.length + tail.length = l.length ∧ l'.Sublist l ∧
      (∀ r ∈ tail, r ∈ l) ∧ (tail ≠ [] → tail.getLast? = l.getLast?) ∧ m'.getD s.arr [] = (l' ++ tail).map some ++ rest) := by
  induction h with
  | refl => exact ⟨Nat.le_refl _, fun _ => ⟨l, [], hl, rfl, rfl, List.Sublist.refl _, by simp, by simp, by simpa using hr⟩⟩
  | @add m' s' n' room _ ih =>
    exact ⟨Nat.le_succ_of_le ih.1, fun h => absurd (h ▸ ih.1 : n' + 1 ≤ n') (Nat.not_succ_le_self _)⟩
  | @cut m' s' n' i hi _ ih =>
    refine ⟨ih.1, fun hn => ?_⟩
    obtain ⟨l', tail, h1, h2, h3, h4, h5, h6, h7⟩ := ih.2 hn
    have hi' : i < l'.length := by rw [← h1.len]; exact hi
    have ha : m'.getD s'.arr [] = l'.map some ++ (tail.map some ++ rest) := by rw [h2, h7]; simp
    have hlists := lists_remove h1 hi'
    refine ⟨l'.eraseIdx i, l'.drop (l'.length - 1) ++ tail, hlists, h2, ?_, (List.eraseIdx_sublist l' i).trans h4, ?_, ?_, ?_⟩
    · simp [List.length_eraseIdx, hi']
      omega
    · intro r hr
      rcases List.mem_append.mp hr with h | h
      · exact h4.subset (List.mem_of_mem_drop h)
      · exact h5 r h
    · intro _
      by_cases ht : tail = []
      · subst ht
        have e : l' = l := h4.eq_of_length (by simpa using h3)
        rw [e, List.append_nil, List.getLast?_drop, if_neg]
        rw [← e]
        omega
      · rw [List.getLast?_append, h6 ht]
        have : l ≠ [] := by rintro rfl; simp at h3; simp_all
        rw [List.getLast?_eq_some_getLast this]
        rfl
    · rw [remove_array h1 ha hi']
      dsimp only
      rw [getD_set h1.arr, if_pos h2.symm]
      simp

/-- What is true of the states of a history. -/
theorem shows_reached {m : Int} {xs : List (Op × Nat)} {st : Store} {es : List Emission} (h : (Store.init m).run xs = .ok (st, es)) :
    Shows st ((Ctrl.init m).run (xs.map Prod.fst)).1 ∧ es = ((Ctrl.init m).run (xs.map Prod.fst)).2 ∧
      ∃ l, Lists st.arrays st.nodes l ∧ l.Nodup ∧ ∀ r ∈ l, r < st.next := by
  obtain ⟨st', h1, h2, h3⟩ := shows_run (shows_init m) xs
  rw [h] at h1
  obtain ⟨rfl, rfl⟩ := Prod.mk.inj (Except.ok.inj h1)
  obtain ⟨l, h4⟩ := kept h3 (shows_init m).nodes List.nodup_nil (by simp [Ctrl.init])
  exact ⟨h2, rfl, l, h4.lists, h4.nodup, h4.lt⟩

theorem edits_after {st : Store} {c : Ctrl} (h : Shows st c) {ys : List (Op × Nat)} {st' : Store} {es : List Emission}
    (hy : st.run ys = .ok (st', es)) : Edits st.arrays st.nodes st.next st'.arrays st'.nodes st'.next ∧ ∃ c', Shows st' c' := by
  obtain ⟨st2, h1, h2, h3⟩ := shows_run h ys
  rw [hy] at h1
  obtain ⟨rfl, rfl⟩ := Prod.mk.inj (Except.ok.inj h1)
  exact ⟨h3, _, h2⟩

end Verif.Artnet
