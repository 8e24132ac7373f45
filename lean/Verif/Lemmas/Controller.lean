import Verif.Spec.Controller
import Verif.Lemmas.Map
import Verif.Lemmas.Encode
/-
Helper lemmas for the controller: routing maps, updateNode, gcNode and the invariant they keep.
-/
namespace Verif.Artnet
open Spec Packet Code

/-! #### routing maps -/

theorem delAll_get (m : GoMap Address Ref) (as : List Address) (a : Address) :
    (delAll m as).get a = if a ∈ as then none else m.get a := by
  unfold delAll
  induction as generalizing m with
  | nil => simp
  | cons x as ih =>
    rw [List.foldl_cons, ih, GoMap.get_del]
    by_cases h1 : a ∈ as
    · simp [h1]
    · by_cases h2 : a = x <;> simp [h1, h2]

theorem setAll_get (m : GoMap Address Ref) (as : List Address) (r : Ref) (a : Address) :
    (setAll m as r).get a = if a ∈ as then some r else m.get a := by
  unfold setAll
  induction as generalizing m with
  | nil => simp
  | cons x as ih =>
    rw [List.foldl_cons, ih, GoMap.get_set]
    by_cases h1 : a ∈ as
    · simp [h1]
    · by_cases h2 : a = x <;> simp [h1, h2]

theorem delAll_wf {m : GoMap Address Ref} (h : m.WF) (as : List Address) : (delAll m as).WF := by
  unfold delAll
  induction as generalizing m with
  | nil => exact h
  | cons x as ih => exact ih (GoMap.wf_del h x)

theorem setAll_wf {m : GoMap Address Ref} (h : m.WF) (as : List Address) (r : Ref) :
    (setAll m as r).WF := by
  unfold setAll
  induction as generalizing m with
  | nil => exact h
  | cons x as ih => exact ih (GoMap.wf_set h x r)

/-- The buffers of a new node. -/
def newBuffers (as : List Address) : GoMap Address DmxBuffer :=
  as.foldl (fun (m : GoMap Address DmxBuffer) a => m.set a DmxBuffer.zero) []

theorem newBuffers_get (as : List Address) (a : Address) :
    (newBuffers as).get a = if a ∈ as then some DmxBuffer.zero else none := by
  have gen : ∀ (as : List Address) (m : GoMap Address DmxBuffer),
      (as.foldl (fun (m : GoMap Address DmxBuffer) a => m.set a DmxBuffer.zero) m).get a =
        if a ∈ as then some DmxBuffer.zero else m.get a := by
    intro as
    induction as with
    | nil => simp
    | cons x as ih =>
      intro m
      rw [List.foldl_cons, ih, GoMap.get_set]
      by_cases h1 : a ∈ as
      · simp [h1]
      · by_cases h2 : a = x <;> simp [h1, h2]
  exact gen as []

/-! #### lists of references -/

theorem mem_eraseIdx_nodup {l : List Ref} (h : l.Nodup) {i : Nat} {r x : Ref} (hi : l[i]? = some r) :
    x ∈ l.eraseIdx i ↔ x ∈ l ∧ x ≠ r := by
  induction l generalizing i with
  | nil => simp at hi
  | cons y l ih =>
    rw [List.nodup_cons] at h
    cases i with
    | zero =>
      simp at hi
      subst hi
      simp only [List.eraseIdx_zero, List.tail_cons, List.mem_cons]
      constructor
      · intro hx
        exact ⟨Or.inr hx, fun e => h.1 (e ▸ hx)⟩
      · rintro ⟨hx | hx, hne⟩
        · exact absurd hx hne
        · exact hx
    | succ i =>
      simp only [List.getElem?_cons_succ] at hi
      have hr : r ∈ l := List.mem_of_getElem? hi
      simp only [List.eraseIdx_cons_succ, List.mem_cons, ih h.2 hi]
      constructor
      · rintro (hx | ⟨hx, hne⟩)
        · exact ⟨Or.inl hx, fun e => h.1 (by rw [← hx, e]; exact hr)⟩
        · exact ⟨Or.inr hx, hne⟩
      · rintro ⟨hx | hx, hne⟩
        · exact Or.inl hx
        · exact Or.inr ⟨hx, hne⟩

/-! #### updateNode -/

/-- The known node with the IP address of `cfg`. -/
def known (c : Ctrl) (ip : Bytes) : Option Ref := c.nodes.find? (fun r => ip == (c.heap r).node.ip)

theorem known_some {c : Ctrl} {ip : Bytes} {r : Ref} (h : known c ip = some r) :
    r ∈ c.nodes ∧ (c.heap r).node.ip = ip := by
  unfold known at h
  refine ⟨List.mem_of_find?_eq_some h, ?_⟩
  have := List.find?_some h
  simpa using (beq_iff_eq.mp this).symm

theorem known_none {c : Ctrl} {ip : Bytes} (h : known c ip = none) :
    ∀ r ∈ c.nodes, (c.heap r).node.ip ≠ ip := by
  unfold known at h
  rw [List.find?_eq_none] at h
  intro r hr e
  exact h r hr (beq_iff_eq.mpr e.symm)

/-- The state after updating the known node `r`. -/
def updatedAt (c : Ctrl) (r : Ref) (cfg : NodeConfig) (now : Int) : Ctrl :=
  { c with
    heap := fun x => if x = r then { c.heap r with node := cfg, lastSeen := now } else c.heap x
    output := setAll (delAll c.output (c.heap r).node.outputs) cfg.outputs r
    input := setAll (delAll c.input (c.heap r).node.inputs) cfg.inputs r }

/-- The state after adding a node. -/
def addedNode (c : Ctrl) (cfg : NodeConfig) (now : Int) : Ctrl :=
  { c with
    heap := fun x => if x = c.next then ⟨now, cfg, ⟨cfg.ip, 6454⟩, 0, newBuffers cfg.outputs⟩ else c.heap x
    next := c.next + 1
    nodes := c.nodes ++ [c.next]
    output := setAll c.output cfg.outputs c.next
    input := setAll c.input cfg.inputs c.next }

theorem updateNode_eq (c : Ctrl) (cfg : NodeConfig) (now : Int) :
    c.updateNode cfg now = match known c cfg.ip with
      | some r => updatedAt c r cfg now
      | none => addedNode c cfg now := by
  unfold Ctrl.updateNode known
  cases c.nodes.find? (fun r => cfg.ip == (c.heap r).node.ip) <;> rfl

theorem updateNode_cases (c : Ctrl) (cfg : NodeConfig) (now : Int) :
    (∃ r, known c cfg.ip = some r ∧ c.updateNode cfg now = updatedAt c r cfg now) ∨
    (known c cfg.ip = none ∧ c.updateNode cfg now = addedNode c cfg now) := by
  rw [updateNode_eq]
  cases h : known c cfg.ip with
  | none => exact Or.inr ⟨rfl, rfl⟩
  | some r => exact Or.inl ⟨r, rfl, rfl⟩

theorem pollReply_eq (c : Ctrl) (p : ArtPollReply) (now : Int) :
    c.pollReply p now = if Tracked p then c.updateNode (configFromArtPollReply p) now else c := by
  have h0 : StyleCode.stNode = 0 := rfl
  have h1 : StyleCode.stController = 1 := rfl
  unfold Ctrl.pollReply Tracked
  rw [h0, h1]
  simp only [List.length_eq_zero_iff]
  by_cases ha : (configFromArtPollReply p).type = 0
  · simp [ha]
  · by_cases hb : (configFromArtPollReply p).type = 1
    · by_cases hc : (configFromArtPollReply p).outputPorts = [] <;> simp [hb, hc]
    · simp [ha, hb]

/-! #### gcNode -/

/-- The state after the `i`-th node, `r`, was removed. -/
def removedAt (c : Ctrl) (i : Nat) (r : Ref) : Ctrl :=
  { c with
    output := delAll c.output (c.heap r).node.outputs
    input := delAll c.input (c.heap r).node.inputs
    nodes := c.nodes.eraseIdx i }

theorem gcFind_none {heap : Ref → ControlledNode} {clock : Nat → Int} {l : List Ref} {k : Nat}
    (h : (gcFind heap clock l k).1 = none) :
    ∀ r ∈ l, ∃ j, k ≤ j ∧ ¬ (heap r).lastSeen + staleAfter < clock j := by
  induction l generalizing k with
  | nil => simp
  | cons x l ih =>
    simp only [gcFind] at h
    split at h
    · simp at h
    · rename_i hx
      simp only [Option.map_eq_none_iff] at h
      intro r hr
      rcases List.mem_cons.mp hr with hr | hr
      · exact ⟨k, Nat.le_refl _, hr ▸ hx⟩
      · obtain ⟨j, hj, h'⟩ := ih h r hr
        exact ⟨j, by omega, h'⟩

theorem gcFind_some {heap : Ref → ControlledNode} {clock : Nat → Int} {l : List Ref} {k i : Nat}
    (h : (gcFind heap clock l k).1 = some i) :
    ∃ r, l[i]? = some r ∧ ∃ j, k ≤ j ∧ (heap r).lastSeen + staleAfter < clock j := by
  induction l generalizing k i with
  | nil => simp [gcFind] at h
  | cons x l ih =>
    simp only [gcFind] at h
    split at h
    · rename_i hx
      simp at h
      subst h
      exact ⟨x, rfl, k, Nat.le_refl _, hx⟩
    · simp only [Option.map_eq_some_iff] at h
      obtain ⟨i', hi', rfl⟩ := h
      obtain ⟨r, hr, j, hj, h'⟩ := ih hi'
      exact ⟨r, by simpa using hr, j, by omega, h'⟩

theorem gcFind_mono (heap : Ref → ControlledNode) (clock : Nat → Int) (l : List Ref) (k : Nat) :
    k ≤ (gcFind heap clock l k).2 := by
  induction l generalizing k with
  | nil => simp [gcFind]
  | cons x l ih =>
    simp only [gcFind]
    split
    · simp
    · have := ih (k + 1)
      simp only
      omega

/-- Induction over a gc pass: a property kept by the removal of a stale node holds at the end, where
the last scan has found nothing. -/
theorem gcFrom_induct (clock : Nat → Int) (P : Ctrl → Prop)
    (step : ∀ c i r, P c → c.nodes[i]? = some r →
      (∃ j, (c.heap r).lastSeen + staleAfter < clock j) → P (removedAt c i r)) :
    ∀ (n : Nat) (c : Ctrl) (k : Nat), c.nodes.length = n → P c →
      P (c.gcFrom clock k) ∧
      ∃ k', k ≤ k' ∧ (gcFind (c.gcFrom clock k).heap clock (c.gcFrom clock k).nodes k').1 = none := by
  intro n
  induction n with
  | zero =>
    intro c k hn hP
    have hnil : c.nodes = [] := List.length_eq_zero_iff.mp hn
    have e : gcFind c.heap clock c.nodes k = (none, k) := by rw [hnil]; rfl
    have : c.gcFrom clock k = c := by
      unfold Ctrl.gcFrom
      split
      · rfl
      · rename_i h; rw [e] at h; simp at h
    rw [this]
    exact ⟨hP, k, Nat.le_refl _, by rw [e]⟩
  | succ n ih =>
    intro c k hn hP
    rw [Ctrl.gcFrom]
    split
    · rename_i k' h
      exact ⟨hP, k, Nat.le_refl _, by rw [h]⟩
    · rename_i i k' h
      have h1 : (gcFind c.heap clock c.nodes k).1 = some i := by rw [h]
      have hlt := gcFind_lt c.heap clock c.nodes k i h1
      obtain ⟨r, hr, j, _, hst⟩ := gcFind_some h1
      have hr' : c.nodes[i]'hlt = r := (List.getElem?_eq_some_iff.mp hr).2
      have hk : k ≤ k' := by
        have := gcFind_mono c.heap clock c.nodes k
        rw [h] at this; exact this
      obtain ⟨hA, k'', hk'', hB⟩ := ih (removedAt c i r) k'
        (by simp only [removedAt, List.length_eraseIdx, hlt, if_true]; omega)
        (step c i r hP hr ⟨j, hst⟩)
      subst hr'
      exact ⟨hA, k'', Nat.le_trans hk hk'', hB⟩

/-- What a gc pass started in `c0` has done when the state is `c`. -/
def GcInv (c0 : Ctrl) (clock : Nat → Int) (c : Ctrl) : Prop :=
  c.heap = c0.heap ∧ c.next = c0.next ∧ c.maxFPS = c0.maxFPS ∧ c.nodes.Sublist c0.nodes ∧
  (∀ r ∈ c0.nodes, r ∉ c.nodes → ∃ j, (c0.heap r).lastSeen + staleAfter < clock j) ∧
  (∀ r ∈ c0.nodes, r ∉ c.nodes → ∀ a ∈ (c0.heap r).node.outputs, c.output.get a = none) ∧
  (∀ r ∈ c0.nodes, r ∉ c.nodes → ∀ a ∈ (c0.heap r).node.inputs, c.input.get a = none) ∧
  (∀ a, (∀ r ∈ c0.nodes, r ∉ c.nodes → a ∉ (c0.heap r).node.outputs) →
    c.output.get a = c0.output.get a) ∧
  (∀ a, (∀ r ∈ c0.nodes, r ∉ c.nodes → a ∉ (c0.heap r).node.inputs) →
    c.input.get a = c0.input.get a) ∧
  (c0.output.WF → c.output.WF) ∧ (c0.input.WF → c.input.WF)

theorem gcInv_refl (c : Ctrl) (clock : Nat → Int) : GcInv c clock c :=
  ⟨rfl, rfl, rfl, List.Sublist.refl _, fun _ h1 h2 => absurd h1 h2, fun _ h1 h2 => absurd h1 h2,
    fun _ h1 h2 => absurd h1 h2, fun _ _ => rfl, fun _ _ => rfl, id, id⟩

theorem gcInv_step (c0 : Ctrl) (clock : Nat → Int) (hn : c0.nodes.Nodup) (c : Ctrl) (i : Nat) (r : Ref)
    (h : GcInv c0 clock c) (hi : c.nodes[i]? = some r)
    (hs : ∃ j, (c.heap r).lastSeen + staleAfter < clock j) : GcInv c0 clock (removedAt c i r) := by
  obtain ⟨h1, h2, h3, h4, h5, h6, h7, h8, h9, h10, h11⟩ := h
  have hnc : c.nodes.Nodup := h4.nodup hn
  have hmem : ∀ x, x ∈ (removedAt c i r).nodes ↔ x ∈ c.nodes ∧ x ≠ r :=
    fun x => mem_eraseIdx_nodup hnc hi
  have hr0 : r ∈ c0.nodes := h4.subset (List.mem_of_getElem? hi)
  have hrn : r ∉ (removedAt c i r).nodes := fun hx => ((hmem r).mp hx).2 rfl
  have hmono : ∀ x, x ∉ c.nodes → x ∉ (removedAt c i r).nodes := fun x hx hx' => hx ((hmem x).mp hx').1
  have hcase : ∀ x, x ∉ (removedAt c i r).nodes → x = r ∨ x ∉ c.nodes := by
    intro x hx
    by_cases e : x = r
    · exact Or.inl e
    · exact Or.inr fun hx' => hx ((hmem x).mpr ⟨hx', e⟩)
  refine ⟨h1, h2, h3, (List.eraseIdx_sublist _ _).trans h4, ?_, ?_, ?_, ?_, ?_, ?_, ?_⟩
  · intro x hx0 hx
    rcases hcase x hx with e | hx'
    · rw [e, ← h1]; exact hs
    · exact h5 x hx0 hx'
  · intro x hx0 hx a ha
    show (delAll c.output _).get a = none
    rw [delAll_get]
    rcases hcase x hx with e | hx'
    · rw [if_pos (by rw [h1, ← e]; exact ha)]
    · rw [h6 x hx0 hx' a ha]; simp
  · intro x hx0 hx a ha
    show (delAll c.input _).get a = none
    rw [delAll_get]
    rcases hcase x hx with e | hx'
    · rw [if_pos (by rw [h1, ← e]; exact ha)]
    · rw [h7 x hx0 hx' a ha]; simp
  · intro a ha
    show (delAll c.output _).get a = _
    rw [delAll_get, if_neg (by rw [h1]; exact ha r hr0 hrn)]
    exact h8 a fun x hx0 hx => ha x hx0 (hmono x hx)
  · intro a ha
    show (delAll c.input _).get a = _
    rw [delAll_get, if_neg (by rw [h1]; exact ha r hr0 hrn)]
    exact h9 a fun x hx0 hx => ha x hx0 (hmono x hx)
  · exact fun h => delAll_wf (h10 h) _
  · exact fun h => delAll_wf (h11 h) _

theorem gcNode_spec (c : Ctrl) (clock : Nat → Int) (hn : c.nodes.Nodup) :
    GcInv c clock (c.gcNode clock) ∧
    ∀ r ∈ (c.gcNode clock).nodes, ∃ j, ¬ (c.heap r).lastSeen + staleAfter < clock j := by
  obtain ⟨h1, k', _, h2⟩ := gcFrom_induct clock (GcInv c clock)
    (fun c' i r h hi hs => gcInv_step c clock hn c' i r h hi hs) _ c 0 rfl (gcInv_refl c clock)
  refine ⟨h1, ?_⟩
  intro r hr
  obtain ⟨j, _, hj⟩ := gcFind_none h2 r hr
  rw [h1.1] at hj
  exact ⟨j, hj⟩

end Verif.Artnet

namespace Verif.Artnet
open Spec Packet Code

/-! #### store -/

theorem store_heap_same (c : Ctrl) (r : Ref) (cn : ControlledNode) : (c.store r cn).heap r = cn := by
  simp [Ctrl.store]

theorem store_heap_ne (c : Ctrl) {r x : Ref} (cn : ControlledNode) (h : x ≠ r) :
    (c.store r cn).heap x = c.heap x := by
  simp [Ctrl.store, h]

theorem store_self (c : Ctrl) (r : Ref) : c.store r (c.heap r) = c := by
  cases c
  simp only [Ctrl.store, Ctrl.mk.injEq, and_true]
  funext x
  split <;> simp_all

theorem store_store (c : Ctrl) (r : Ref) (x y : ControlledNode) :
    (c.store r x).store r y = c.store r y := by
  simp only [Ctrl.store, Ctrl.mk.injEq, and_true]
  funext z
  split <;> rfl

/-! #### one universe of a tick -/

/-- The datagram made for universe `a` of `cn`. -/
def datagram (cn : ControlledNode) (a : Address) : Bytes :=
  [0x41, 0x72, 0x74, 0x2d, 0x4e, 0x65, 0x74, 0x00, 0x00, 0x50, 0x00, 0x0e,
    cn.sequence + 1, 0, a.subUni, a.net, 0x02, 0x00] ++ (bufferAt cn a).data.val

/-- The node after its universe `a` was transmitted. -/
def sent (cn : ControlledNode) (a : Address) (now : Int) : ControlledNode :=
  { cn with
    sequence := cn.sequence + 1
    dmxBuffer := cn.dmxBuffer.set a { bufferAt cn a with lastUpdate := now, stale := false } }

/-- The node with a buffer for `a`. -/
def withBuffer (cn : ControlledNode) (a : Address) : ControlledNode :=
  match cn.dmxBuffer.get a with
  | none => { cn with dmxBuffer := cn.dmxBuffer.set a DmxBuffer.zero }
  | some _ => cn

theorem withBuffer_get (cn : ControlledNode) (a : Address) :
    (withBuffer cn a).dmxBuffer.get a = some (bufferAt cn a) := by
  unfold withBuffer bufferAt
  cases h : cn.dmxBuffer.get a with
  | none => simp [GoMap.get_set_same]
  | some b => simp [h]

theorem withBuffer_get_ne (cn : ControlledNode) {a x : Address} (h : x ≠ a) :
    (withBuffer cn a).dmxBuffer.get x = cn.dmxBuffer.get x := by
  unfold withBuffer
  cases cn.dmxBuffer.get a with
  | none => simp [GoMap.get_set_ne _ _ h]
  | some b => rfl

theorem withBuffer_fields (cn : ControlledNode) (a : Address) :
    (withBuffer cn a).lastSeen = cn.lastSeen ∧ (withBuffer cn a).node = cn.node ∧
    (withBuffer cn a).udpAddress = cn.udpAddress ∧ (withBuffer cn a).sequence = cn.sequence := by
  unfold withBuffer
  cases cn.dmxBuffer.get a <;> simp

theorem marshal_dmx (p : ArtDMX) : (p.marshalBinary).2 =
    ([0x41, 0x72, 0x74, 0x2d, 0x4e, 0x65, 0x74, 0x00, 0x00, 0x50, 0x00, 0x0e,
      p.sequence, p.physical, p.subUni, p.net, 0x02, 0x00] ++ p.data.val, none) := by
  rw [ArtDMX.marshal_eq, ArtDMX.image_eq]; rfl

theorem update_eq (c : Ctrl) (r : Ref) (a : Address) (now : Int) (b : DmxBuffer)
    (h : (c.heap r).dmxBuffer.get a = some b) :
    c.update r a now = (c.store r (sent (c.heap r) a now),
      [⟨r, (c.heap r).udpAddress, datagram (c.heap r) a⟩], true) := by
  have hb : bufferAt (c.heap r) a = b := by simp [bufferAt, h]
  unfold Ctrl.update ControlledNode.dmxUpdate
  simp only [h, marshal_dmx]
  simp [sent, datagram, hb, ArtDMX.new]

theorem tickAt_eq (c : Ctrl) (a : Address) (r : Ref) (now : Int) :
    c.tickAt a r now =
      if Due (bufferAt (c.heap r) a) now c.maxFPS then
        (c.store r (sent (withBuffer (c.heap r) a) a now),
          [⟨r, (c.heap r).udpAddress, datagram (withBuffer (c.heap r) a) a⟩])
      else (c.store r (withBuffer (c.heap r) a), []) := by
  have e1 : c.ensureBuffer a r = c.store r (withBuffer (c.heap r) a) := by
    unfold Ctrl.ensureBuffer withBuffer
    cases (c.heap r).dmxBuffer.get a with
    | none => rfl
    | some b => exact (store_self c r).symm
  unfold Ctrl.tickAt
  rw [e1]
  have hg := withBuffer_get (c.heap r) a
  have hu := update_eq (c.store r (withBuffer (c.heap r) a)) r a now (bufferAt (c.heap r) a)
    (by rw [store_heap_same]; exact hg)
  simp only [hu, store_heap_same, hg, Option.getD_some, store_store]
  have hm : (c.store r (withBuffer (c.heap r) a)).maxFPS = c.maxFPS := rfl
  have hudp := (withBuffer_fields (c.heap r) a).2.2.1
  rw [hm]
  by_cases h1 : (bufferAt (c.heap r) a).stale = true ∧ (bufferAt (c.heap r) a).lastUpdate < now - c.maxFPS
  · have hd : Due (bufferAt (c.heap r) a) now c.maxFPS := Or.inl h1
    rw [if_pos h1, if_pos hd]
    simp only [store_heap_same, sent, GoMap.get_set_same, Option.getD_some, if_true, hudp]
    rw [if_neg (show ¬ now < now - forceUpdate by simp only [forceUpdate]; omega)]
  · rw [if_neg h1]
    simp only [if_true, store_heap_same, hg, Option.getD_some]
    by_cases h2 : (bufferAt (c.heap r) a).lastUpdate < now - forceUpdate
    · have hd : Due (bufferAt (c.heap r) a) now c.maxFPS := Or.inr h2
      rw [if_pos h2, if_pos hd, hu]
      simp only [store_heap_same, store_store, List.nil_append, hudp]
    · have hd : ¬ Due (bufferAt (c.heap r) a) now c.maxFPS := by
        rintro (h | h)
        · exact h1 h
        · exact h2 h
      rw [if_neg h2, if_neg hd]

end Verif.Artnet
