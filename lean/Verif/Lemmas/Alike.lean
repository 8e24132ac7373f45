import Verif.Lemmas.CtrlInv
/-
Two controllers that differ only in the sequence numbers and in the buffers of some universes.
-/
namespace Verif.Artnet
open Spec Packet Code

/-- Equal but for the sequence numbers and the buffers of universes outside `A`. -/
structure Alike (A : Address → Prop) (c d : Ctrl) : Prop where
  next : d.next = c.next
  nodes : d.nodes = c.nodes
  output : d.output = c.output
  input : d.input = c.input
  maxFPS : d.maxFPS = c.maxFPS
  lastSeen : ∀ r, (d.heap r).lastSeen = (c.heap r).lastSeen
  node : ∀ r, (d.heap r).node = (c.heap r).node
  udp : ∀ r, (d.heap r).udpAddress = (c.heap r).udpAddress
  buffer : ∀ r a, A a → (d.heap r).dmxBuffer.get a = (c.heap r).dmxBuffer.get a

theorem Alike.refl (A : Address → Prop) (c : Ctrl) : Alike A c c :=
  ⟨rfl, rfl, rfl, rfl, rfl, fun _ => rfl, fun _ => rfl, fun _ => rfl, fun _ _ _ => rfl⟩

theorem Alike.symm {A : Address → Prop} {c d : Ctrl} (h : Alike A c d) : Alike A d c :=
  ⟨h.next.symm, h.nodes.symm, h.output.symm, h.input.symm, h.maxFPS.symm, fun r => (h.lastSeen r).symm,
    fun r => (h.node r).symm, fun r => (h.udp r).symm, fun r a ha => (h.buffer r a ha).symm⟩

theorem Alike.trans {A : Address → Prop} {c d e : Ctrl} (h : Alike A c d) (k : Alike A d e) : Alike A c e :=
  ⟨k.next.trans h.next, k.nodes.trans h.nodes, k.output.trans h.output, k.input.trans h.input, k.maxFPS.trans h.maxFPS,
    fun r => (k.lastSeen r).trans (h.lastSeen r), fun r => (k.node r).trans (h.node r), fun r => (k.udp r).trans (h.udp r),
    fun r a ha => (k.buffer r a ha).trans (h.buffer r a ha)⟩

theorem Alike.bufferAt {A : Address → Prop} {c d : Ctrl} (h : Alike A c d) (r : Ref) {a : Address} (ha : A a) :
    bufferAt (d.heap r) a = bufferAt (c.heap r) a := by
  unfold Spec.bufferAt
  rw [h.buffer r a ha]

theorem Alike.known {A : Address → Prop} {c d : Ctrl} (h : Alike A c d) (ip : Bytes) : known d ip = known c ip := by
  unfold Artnet.known
  rw [h.nodes]
  congr 1
  funext r
  rw [h.node]

theorem Alike.updatedAt {A : Address → Prop} {c d : Ctrl} (h : Alike A c d) (r : Ref) (cfg : NodeConfig) (now : Int) :
    Alike A (updatedAt c r cfg now) (updatedAt d r cfg now) := by
  refine ⟨h.next, h.nodes, ?_, ?_, h.maxFPS, ?_, ?_, ?_, ?_⟩
  · simp only [Artnet.updatedAt, h.output, h.node]
  · simp only [Artnet.updatedAt, h.input, h.node]
  · intro x
    simp only [Artnet.updatedAt]
    split
    · rfl
    · exact h.lastSeen x
  · intro x
    simp only [Artnet.updatedAt]
    split
    · rfl
    · exact h.node x
  · intro x
    simp only [Artnet.updatedAt]
    split
    · exact h.udp r
    · exact h.udp x
  · intro x a ha
    simp only [Artnet.updatedAt]
    split
    · exact h.buffer r a ha
    · exact h.buffer x a ha

theorem Alike.addedNode {A : Address → Prop} {c d : Ctrl} (h : Alike A c d) (cfg : NodeConfig) (now : Int) :
    Alike A (addedNode c cfg now) (addedNode d cfg now) := by
  refine ⟨?_, ?_, ?_, ?_, h.maxFPS, ?_, ?_, ?_, ?_⟩
  · simp only [Artnet.addedNode, h.next]
  · simp only [Artnet.addedNode, h.next, h.nodes]
  · simp only [Artnet.addedNode, h.next, h.output]
  · simp only [Artnet.addedNode, h.next, h.input]
  · intro x
    simp only [Artnet.addedNode, h.next]
    split
    · rfl
    · exact h.lastSeen x
  · intro x
    simp only [Artnet.addedNode, h.next]
    split
    · rfl
    · exact h.node x
  · intro x
    simp only [Artnet.addedNode, h.next]
    split
    · rfl
    · exact h.udp x
  · intro x a ha
    simp only [Artnet.addedNode, h.next]
    split
    · rfl
    · exact h.buffer x a ha

theorem Alike.pollReply {A : Address → Prop} {c d : Ctrl} (h : Alike A c d) (p : ArtPollReply) (now : Int) :
    Alike A (c.pollReply p now) (d.pollReply p now) := by
  rw [pollReply_eq, pollReply_eq]
  split
  · rw [updateNode_eq, updateNode_eq, h.known]
    cases Artnet.known c (configFromArtPollReply p).ip with
    | none => exact h.addedNode _ _
    | some r => exact h.updatedAt _ _ _
  · exact h

theorem gcFrom_stop {c : Ctrl} {clock : Nat → Int} {k k' : Nat} (h : gcFind c.heap clock c.nodes k = (none, k')) :
    c.gcFrom clock k = c := by
  rw [Ctrl.gcFrom]
  split
  · rfl
  · rename_i h'
    rw [h] at h'
    cases h'

theorem gcFrom_remove {c : Ctrl} {clock : Nat → Int} {k k' i : Nat} {r : Ref}
    (h : gcFind c.heap clock c.nodes k = (some i, k')) (hr : c.nodes[i]? = some r) :
    c.gcFrom clock k = (removedAt c i r).gcFrom clock k' := by
  rw [Ctrl.gcFrom]
  split
  · rename_i h'
    rw [h] at h'
    cases h'
  · rename_i j k'' h'
    have hlt := gcFind_lt c.heap clock c.nodes k j (by rw [h'])
    rw [h] at h'
    cases h'
    have hr' : c.nodes[i]'hlt = r := (List.getElem?_eq_some_iff.mp hr).2
    subst hr'
    rfl

theorem gcFind_congr {f g : Ref → ControlledNode} (h : ∀ r, (g r).lastSeen = (f r).lastSeen) (clock : Nat → Int) (l : List Ref)
    (k : Nat) : gcFind g clock l k = gcFind f clock l k := by
  induction l generalizing k with
  | nil => rfl
  | cons x l ih => simp only [gcFind, h, ih]

theorem Alike.removedAt {A : Address → Prop} {c d : Ctrl} (h : Alike A c d) (i : Nat) (r : Ref) :
    Alike A (removedAt c i r) (removedAt d i r) := by
  refine ⟨h.next, ?_, ?_, ?_, h.maxFPS, h.lastSeen, h.node, h.udp, h.buffer⟩
  · simp only [Artnet.removedAt, h.nodes]
  · simp only [Artnet.removedAt, h.output, h.node]
  · simp only [Artnet.removedAt, h.input, h.node]

theorem Alike.gcFrom {A : Address → Prop} (clock : Nat → Int) : ∀ (n : Nat) {c d : Ctrl} (k : Nat), c.nodes.length = n →
    Alike A c d → Alike A (c.gcFrom clock k) (d.gcFrom clock k) := by
  intro n
  induction n with
  | zero =>
    intro c d k hn h
    have hc : c.nodes = [] := List.length_eq_zero_iff.mp hn
    rw [gcFrom_stop (c := c) (k' := k) (by rw [hc]; rfl), gcFrom_stop (c := d) (k' := k) (by rw [h.nodes, hc]; rfl)]
    exact h
  | succ n ih =>
    intro c d k hn h
    have e : gcFind d.heap clock d.nodes k = gcFind c.heap clock c.nodes k := by
      rw [h.nodes]
      exact gcFind_congr h.lastSeen clock _ _
    generalize hg : gcFind c.heap clock c.nodes k = g at e
    obtain ⟨_ | i, k'⟩ := g
    · rw [gcFrom_stop hg, gcFrom_stop e]
      exact h
    · have hlt := gcFind_lt c.heap clock c.nodes k i (by rw [hg])
      obtain ⟨r, hr, _⟩ := gcFind_some (show (gcFind c.heap clock c.nodes k).1 = some i by rw [hg])
      rw [gcFrom_remove hg hr, gcFrom_remove e (h.nodes ▸ hr)]
      exact ih k' (by simp only [Artnet.removedAt, List.length_eraseIdx, hlt, if_true]; omega) (h.removedAt i r)

theorem Alike.gcNode {A : Address → Prop} {c d : Ctrl} (h : Alike A c d) (clock : Nat → Int) :
    Alike A (c.gcNode clock) (d.gcNode clock) := Alike.gcFrom clock _ 0 rfl h

theorem Alike.sendDMX {A : Address → Prop} {c d : Ctrl} (h : Alike A c d) (x : Arr 512) (b : Address) :
    Alike A (c.sendDMX x b) (d.sendDMX x b) := by
  obtain ⟨f1, f2, f3, f4, f5, f6, -, f8⟩ := sendDMX_frame c x b
  obtain ⟨g1, g2, g3, g4, g5, g6, -, g8⟩ := sendDMX_frame d x b
  refine ⟨by rw [f1, g1, h.next], by rw [f2, g2, h.nodes], by rw [f3, g3, h.output], by rw [f4, g4, h.input],
    by rw [f5, g5, h.maxFPS], fun r => by rw [(f6 r).1, (g6 r).1, h.lastSeen], fun r => by rw [(f6 r).2.1, (g6 r).2.1, h.node],
    fun r => by rw [(f6 r).2.2.1, (g6 r).2.2.1, h.udp], ?_⟩
  intro r a ha
  rw [f8, g8, h.output]
  by_cases hc : c.output.get b = some r ∧ a = b
  · rw [if_pos hc, if_pos hc, h.buffer r b (hc.2 ▸ ha)]
  · rw [if_neg hc, if_neg hc, h.buffer r a ha]

theorem Alike.otherSend {A : Address → Prop} (c : Ctrl) (x : Arr 512) {b : Address} (hb : ¬ A b) :
    Alike A c (c.sendDMX x b) := by
  obtain ⟨f1, f2, f3, f4, f5, f6, -, f8⟩ := sendDMX_frame c x b
  refine ⟨f1, f2, f3, f4, f5, fun r => (f6 r).1, fun r => (f6 r).2.1, fun r => (f6 r).2.2.1, ?_⟩
  intro r a ha
  rw [f8, if_neg]
  rintro ⟨_, rfl⟩
  exact hb ha

theorem Alike.restart {A : Address → Prop} {c d : Ctrl} (h : Alike A c d) : Alike A c.restart d.restart :=
  ⟨h.next, h.nodes, rfl, rfl, h.maxFPS, h.lastSeen, h.node, h.udp, h.buffer⟩

theorem Alike.tick {A : Address → Prop} {c d c' d' : Ctrl} (h : Alike A c d) {o1 o2 : List Address} {now : Int}
    {e1 e2 : List Emission} (h1 : TickSpec c o1 now c' e1) (h2 : TickSpec d o2 now d' e2) (ho : o2.Perm o1) : Alike A c' d' := by
  refine ⟨by rw [h1.next, h2.next, h.next], by rw [h1.nodes, h2.nodes, h.nodes], by rw [h1.output, h2.output, h.output],
    by rw [h1.input, h2.input, h.input], by rw [h1.maxFPS, h2.maxFPS, h.maxFPS],
    fun r => by rw [h1.lastSeen, h2.lastSeen, h.lastSeen], fun r => by rw [h1.node, h2.node, h.node],
    fun r => by rw [h1.udp, h2.udp, h.udp], ?_⟩
  intro r a ha
  rw [h1.buffer, h2.buffer, h.output, h.maxFPS, h.bufferAt r ha, h.buffer r a ha]
  simp only [ho.mem_iff]

theorem Alike.canDo {A : Address → Prop} {c d : Ctrl} (h : Alike A c d) {o : Op} (ho : c.CanDo o) : d.CanDo o := by
  cases o with
  | tick order now =>
    show order.Perm d.output.keys
    rw [h.output]
    exact ho
  | _ => trivial

end Verif.Artnet
