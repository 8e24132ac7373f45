import Verif.Lemmas.Slice
import Verif.Props.Controller
/-
The field Nodes as a slice: C151, C152.
-/
namespace Verif.Props
open Spec Packet Code Artnet

/-- C151: whatever room the runtime gives to new arrays, no history meets a nil pointer or panics, the slice Nodes always lists the nodes
of Model/Controller.lean, and the nodes, the tables and all that is sent are the same. -/
theorem C151_refines (m : Int) (xs : List (Op × Nat)) :
    ∃ st, (Store.init m).run xs = .ok (st, ((Ctrl.init m).run (xs.map Prod.fst)).2) ∧
      st.nodes.slots st.arrays = ((Ctrl.init m).run (xs.map Prod.fst)).1.nodes.map some ∧
      st.heap = ((Ctrl.init m).run (xs.map Prod.fst)).1.heap ∧
      st.output = ((Ctrl.init m).run (xs.map Prod.fst)).1.output ∧
      st.input = ((Ctrl.init m).run (xs.map Prod.fst)).1.input := by
  obtain ⟨st, h1, h2, _⟩ := shows_run (shows_init m) xs
  exact ⟨st, h1, h2.nodes.slots, h2.heap, h2.output, h2.input⟩

/-- Two nodes, of which the first is forgotten. -/
def twoNodes : List (Op × Nat) := [(.reply (replyOf ipA 1) 0, 0), (.reply (replyOf ipB 2) (5 * second), 3)]

def firstGone : List (Op × Nat) := [(.gc fun _ => 8 * second, 0)]

def slotsAfter (xs : List (Op × Nat)) : Option (List (Option Ref)) :=
  match (Store.init 40).run xs with
  | .ok (st, _) => some (st.nodes.slots st.arrays)
  | .error _ => none

example : slotsAfter twoNodes = some [some 0, some 1] ∧ slotsAfter (twoNodes ++ firstGone) = some [some 1] ∧
    slotsAfter (twoNodes ++ firstGone ++ [(.reply (replyOf ipA 3) (9 * second), 0)]) = some [some 1, some 2] := by decide +kernel

/-- C152: a slice that a caller has read from Nodes goes on listing the same nodes. -/
def C152_statement : Prop :=
  ∀ (m : Int) (xs ys : List (Op × Nat)) (st st' : Store) (es es' : List Emission),
    (Store.init m).run xs = .ok (st, es) → st.run ys = .ok (st', es') →
    st.nodes.slots st'.arrays = st.nodes.slots st.arrays

/-- What the slice read after `xs` lists then and after `ys`. -/
def oldSlice (xs ys : List (Op × Nat)) : Option (List (Option Ref) × List (Option Ref)) :=
  match (Store.init 40).run xs with
  | .ok (st, _) =>
    match st.run ys with
    | .ok (st', _) => some (st.nodes.slots st.arrays, st.nodes.slots st'.arrays)
    | .error _ => none
  | .error _ => none

theorem oldSlice_eq {xs ys : List (Op × Nat)} {a b : List (Option Ref)} (h : oldSlice xs ys = some (a, b)) :
    ∃ st st' es es', (Store.init 40).run xs = .ok (st, es) ∧ st.run ys = .ok (st', es') ∧ st.nodes.slots st.arrays = a ∧
      st.nodes.slots st'.arrays = b := by
  unfold oldSlice at h
  split at h
  · rename_i st es h1
    split at h
    · rename_i st' es' h2
      obtain ⟨ha, hb⟩ := Prod.mk.inj (Option.some.inj h)
      exact ⟨st, st', es, es', h1, h2, ha, hb⟩
    · cases h
  · cases h

/-- The node that is left is listed twice; when another node appears it takes the second place. -/
theorem C152_false : ¬ C152_statement := by
  intro h
  obtain ⟨st, st', es, es', h1, h2, h3, h4⟩ :=
    oldSlice_eq (xs := twoNodes) (ys := firstGone) (a := [some 0, some 1]) (b := [some 1, some 1]) (by decide +kernel)
  have := h 40 _ _ st st' es es' h1 h2
  rw [h3, h4] at this
  revert this
  decide

example : oldSlice twoNodes (firstGone ++ [(.reply (replyOf ipA 3) (9 * second), 0)]) = some ([some 0, some 1], [some 1, some 2]) := by
  decide +kernel

/-- As long as Nodes still lists every node of the old slice, the old slice has not changed. -/
theorem C152_partial (m : Int) (xs ys : List (Op × Nat)) (st st' : Store) (es es' : List Emission)
    (h : (Store.init m).run xs = .ok (st, es)) (h' : st.run ys = .ok (st', es'))
    (hk : ∀ p ∈ st.nodes.slots st.arrays, p ∈ st'.nodes.slots st'.arrays) :
    st.nodes.slots st'.arrays = st.nodes.slots st.arrays := by
  obtain ⟨h1, _, l0, h2, h3, h4⟩ := shows_reached h
  obtain ⟨he, _⟩ := edits_after h1 h'
  obtain ⟨l, hl⟩ := kept he h2 h3 h4
  rw [h2.slots]
  refine (hl.same fun r hr => ?_).1
  have := hk (some r) (by rw [h2.slots]; exact List.mem_map.mpr ⟨r, hr, rfl⟩)
  rw [hl.lists.slots] at this
  obtain ⟨x, hx, e⟩ := List.mem_map.mp this
  cases e
  exact hx

example : oldSlice [(.reply (replyOf ipA 1) 0, 2)] [(.reply (replyOf ipB 2) second, 0), (.gc fun _ => 2 * second, 0)] =
    some ([some 0], [some 0]) := by decide +kernel

/-- Whatever happens, the old slice lists as many nodes as it did, never a nil pointer, and only nodes that have been seen. -/
theorem C152_pointers (m : Int) (xs ys : List (Op × Nat)) (st st' : Store) (es es' : List Emission)
    (h : (Store.init m).run xs = .ok (st, es)) (h' : st.run ys = .ok (st', es')) :
    (st.nodes.slots st'.arrays).length = (st.nodes.slots st.arrays).length ∧
      ∀ p ∈ st.nodes.slots st'.arrays, ∃ r, p = some r ∧ r < st'.next := by
  obtain ⟨h1, _, l0, h2, h3, h4⟩ := shows_reached h
  obtain ⟨he, _⟩ := edits_after h1 h'
  obtain ⟨l, hl⟩ := kept he h2 h3 h4
  refine ⟨?_, fun p hp => ?_⟩
  · rw [h2.slots, List.length_map, ← h2.len, Slice.slots, List.length_take, Nat.min_eq_left hl.whole]
  · obtain ⟨r, h5, h6⟩ := hl.seen p hp
    exact ⟨r, h6, h5⟩

/-- When nodes have been forgotten and none has been added: the old slice lists first the nodes that are left and then nodes that it
listed before, the last of them in the last place. If one node has been forgotten, the last node is so listed twice, or it is the one
forgotten. -/
theorem C152_forgotten (m : Int) (xs ys : List (Op × Nat)) (st st' : Store) (es es' : List Emission)
    (h : (Store.init m).run xs = .ok (st, es)) (h' : st.run ys = .ok (st', es')) (hn : st'.next = st.next) :
    ∃ tail, st.nodes.slots st'.arrays = st'.nodes.slots st'.arrays ++ tail ∧
      (st'.nodes.slots st'.arrays).Sublist (st.nodes.slots st.arrays) ∧
      (∀ p ∈ tail, p ∈ st.nodes.slots st.arrays) ∧
      (tail ≠ [] → tail.getLast? = (st.nodes.slots st.arrays).getLast?) := by
  obtain ⟨h1, _, l0, h2, h3, h4⟩ := shows_reached h
  obtain ⟨he, _⟩ := edits_after h1 h'
  obtain ⟨rest, hr⟩ := h2.array
  obtain ⟨l', tail, k1, k2, k3, k4, k5, k6, k7⟩ := (edits_cuts he h2 hr).2 hn
  refine ⟨tail.map some, ?_, ?_, ?_, ?_⟩
  · rw [k1.slots, Slice.slots, k7, ← List.map_append]
    have : st.nodes.len = ((l' ++ tail).map some).length := by rw [h2.len]; simp [k3]
    rw [this, List.take_left]
  · rw [k1.slots, h2.slots]
    exact k4.map _
  · intro p hp
    obtain ⟨r, hr, rfl⟩ := List.mem_map.mp hp
    rw [h2.slots]
    exact List.mem_map.mpr ⟨r, k5 r hr, rfl⟩
  · intro ht
    rw [h2.slots, List.getLast?_map, List.getLast?_map, k6 (by rintro rfl; simp at ht)]

example : oldSlice (twoNodes ++ [(.reply (replyOf ⟨[10, 0, 0, 3], rfl⟩ 4) (6 * second), 0)]) firstGone =
    some ([some 0, some 1, some 2], [some 1, some 2, some 2]) := by decide +kernel

/-- Once Nodes is in another array, the old slice never changes again. -/
theorem C152_moved (m : Int) (xs ys zs : List (Op × Nat)) (st st' st'' : Store) (es es' es'' : List Emission)
    (h : (Store.init m).run xs = .ok (st, es)) (h' : st.run ys = .ok (st', es')) (h'' : st'.run zs = .ok (st'', es''))
    (hm : st'.nodes.arr ≠ st.nodes.arr) :
    st.nodes.slots st''.arrays = st.nodes.slots st'.arrays ∧ st''.nodes.arr ≠ st.nodes.arr := by
  obtain ⟨h1, _, l0, h2, h3, h4⟩ := shows_reached h
  obtain ⟨he, c', hc'⟩ := edits_after h1 h'
  obtain ⟨he', _⟩ := edits_after hc' h''
  obtain ⟨l, hl⟩ := kept he h2 h3 h4
  obtain ⟨k1, k2, _⟩ := edits_other he' hl.lists hl.arr hm
  exact ⟨by rw [Slice.slots, k1, ← Slice.slots], k2⟩

/-- Without room for the second node Nodes moves, and what happens to it later does not show in the old slice. -/
example : oldSlice [(.reply (replyOf ipA 1) 0, 0)] [(.reply (replyOf ipB 2) (5 * second), 3), (.gc fun _ => 8 * second, 0)] =
    some ([some 0], [some 0]) := by decide +kernel

end Verif.Props
