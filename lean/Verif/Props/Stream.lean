import Verif.Props.Controller
/-
Properties of the DMX stream the controller sends: C46–C51, C53, C54.
-/
namespace Verif.Props
open Spec Packet Code Artnet

/-! ### Buffers and sequence numbers along a history -/

/-- A reply, a gc pass or a restart leaves the buffers of an existing node object and all sequence
numbers alone. -/
theorem quiet_step {c : Ctrl} (hi : Inv c) (o : Op) (ho : c.CanDo o) (h1 : ¬ IsTick o)
    (h2 : ∀ a, ¬ SendsTo a o) :
    c.next ≤ (c.step o).1.next ∧ (c.step o).2 = [] ∧
    (∀ r, r < c.next → ((c.step o).1.heap r).dmxBuffer = (c.heap r).dmxBuffer) ∧
    (∀ r, ((c.step o).1.heap r).sequence = (c.heap r).sequence) ∧
    (c.step o).1.maxFPS = c.maxFPS := by
  cases o with
  | restart => exact ⟨Nat.le_refl _, rfl, fun _ _ => rfl, fun _ => rfl, rfl⟩
  | tick order now => exact absurd trivial h1
  | send d x => exact absurd rfl (h2 x)
  | gc clock =>
    obtain ⟨⟨g1, g2, g3, _⟩, _⟩ := gcNode_spec c clock hi.nodup
    refine ⟨?_, rfl, ?_, ?_, g3⟩
    · show c.next ≤ (c.gcNode clock).next
      rw [g2]; exact Nat.le_refl _
    · intro r _
      show ((c.gcNode clock).heap r).dmxBuffer = _
      rw [g1]
    · intro r
      show ((c.gcNode clock).heap r).sequence = _
      rw [g1]
  | reply p now =>
    show c.next ≤ (c.pollReply p now).next ∧ _ ∧
      (∀ r, r < c.next → ((c.pollReply p now).heap r).dmxBuffer = _) ∧
      (∀ r, ((c.pollReply p now).heap r).sequence = _) ∧ (c.pollReply p now).maxFPS = _
    rw [pollReply_eq]
    split
    · rcases updateNode_cases c (configFromArtPollReply p) now with ⟨s, hk, e⟩ | ⟨hk, e⟩
      · rw [e]
        refine ⟨Nat.le_refl _, rfl, ?_, ?_, rfl⟩
        · intro r _
          by_cases hr : r = s <;> simp [updatedAt, hr]
        · intro r
          by_cases hr : r = s <;> simp [updatedAt, hr]
      · rw [e]
        refine ⟨Nat.le_succ _, rfl, ?_, ?_, rfl⟩
        · intro r hr
          have hne : r ≠ c.next := fun e => absurd hr (e ▸ Nat.lt_irrefl _)
          simp [addedNode, hne]
        · intro r
          by_cases hr : r = c.next
          · subst hr
            rw [hi.fresh c.next (Nat.le_refl _)]
            simp [addedNode, ControlledNode.none]
          · simp [addedNode, hr]
    · exact ⟨Nat.le_refl _, rfl, fun _ _ => rfl, fun _ => rfl, rfl⟩

theorem ofNat_add8' (s : UInt8) (m n : Nat) :
    s + UInt8.ofNat m + UInt8.ofNat n = s + UInt8.ofNat (m + n) := by
  apply UInt8.toNat_inj.mp
  simp only [UInt8.toNat_add, UInt8.toNat_ofNat']
  omega

theorem seqFrom_append' (s : UInt8) (m n : Nat) :
    seqFrom s (m + n) = seqFrom s m ++ seqFrom (s + UInt8.ofNat m) n := by
  induction m generalizing s with
  | zero => rw [Nat.zero_add, ← ofNat_zero8]; rfl
  | succ m ih =>
    rw [Nat.succ_add]
    show (s + 1) :: seqFrom (s + 1) (m + n) = (s + 1) :: (seqFrom (s + 1) m ++ _)
    rw [ih, uint8_add_ofNat_succ]

theorem seqFrom_length (s : UInt8) (n : Nat) : (seqFrom s n).length = n := by
  induction n generalizing s with
  | zero => rfl
  | succ n ih => simp [seqFrom, ih]

theorem seqFrom_eq (s : UInt8) (n : Nat) :
    seqFrom s n = (List.range n).map fun i => s + UInt8.ofNat (i + 1) := by
  induction n generalizing s with
  | zero => rfl
  | succ n ih =>
    rw [List.range_succ_eq_map, List.map_cons, List.map_map, seqFrom, ih]
    congr 1
    apply List.map_congr_left
    intro i _
    exact uint8_add_ofNat_succ s (i + 1)

theorem run_sequence {c : Ctrl} (hi : Inv c) (os : List Op) (h : c.CanRun os) (r : Ref) :
    ∃ n, ((c.run os).1.heap r).sequence = (c.heap r).sequence + UInt8.ofNat n ∧
      ((c.run os).2.filter (·.ref = r)).map emSequence = seqFrom (c.heap r).sequence n := by
  induction os generalizing c with
  | nil => exact ⟨0, ofNat_zero8 _, rfl⟩
  | cons o os ih =>
    obtain ⟨n, h1, h2⟩ := ih (hi.step o h.1) h.2
    have hs : ∃ m, ((c.step o).1.heap r).sequence = (c.heap r).sequence + UInt8.ofNat m ∧
        ((c.step o).2.filter (·.ref = r)).map emSequence = seqFrom (c.heap r).sequence m := by
      cases o with
      | tick order now => exact (tick_spec hi (now := now) h.1).sequence r
      | send d x =>
        obtain ⟨_, _, _, _, _, f6, _, _⟩ := sendDMX_frame c d x
        refine ⟨0, ?_, rfl⟩
        rw [← ofNat_zero8]
        exact (f6 r).2.2.2
      | reply p now =>
        obtain ⟨_, _, _, q, _⟩ := quiet_step hi (.reply p now) h.1 id (fun _ => id)
        exact ⟨0, by rw [← ofNat_zero8]; exact q r, rfl⟩
      | gc clock =>
        obtain ⟨_, _, _, q, _⟩ := quiet_step hi (.gc clock) h.1 id (fun _ => id)
        exact ⟨0, by rw [← ofNat_zero8]; exact q r, rfl⟩
      | restart => exact ⟨0, ofNat_zero8 _, rfl⟩
    obtain ⟨m, h3, h4⟩ := hs
    refine ⟨m + n, ?_, ?_⟩
    · rw [(run_cons c o os).1, h1, h3, ofNat_add8']
    · rw [(run_cons c o os).2, List.filter_append, List.map_append, h2, h4, seqFrom_append', h3]

/-! ### C47–C49: one tick -/

/-- C47: for every state, clock and iteration order of the routing map, one tick sends at most one
datagram per routed universe and none for an unrouted one. -/
theorem C47_one_packet_per_universe (c : Ctrl) (hw : c.output.WF) (order : List Address)
    (ho : order.Perm c.output.keys) (now : Int) :
    let es := (c.tickOver order now).2
    (es.map emAddress).Nodup ∧ (∀ a, (es.filter (emAddress · = a)).length ≤ 1) ∧
    ∀ e ∈ es, IsDMX e ∧ ∃ r, Routed c (emAddress e) r := by
  intro es
  have hn : order.Nodup := ho.nodup_iff.mpr hw
  have t := tickOver_spec c order now hn
  have hnd : (es.map emAddress).Nodup := by
    rw [t.addresses]; exact hn.sublist List.filter_sublist
  refine ⟨hnd, ?_, ?_⟩
  · intro a
    have hsub : ((es.filter (emAddress · = a)).map emAddress).Nodup :=
      hnd.sublist (List.filter_sublist.map _)
    have hall : ∀ x ∈ (es.filter (emAddress · = a)).map emAddress, x = a := by
      intro x hx
      obtain ⟨e, he, rfl⟩ := List.mem_map.mp hx
      simpa using (List.mem_filter.mp he).2
    rw [← List.length_map (as := es.filter (emAddress · = a)) emAddress]
    generalize (es.filter (emAddress · = a)).map emAddress = l at hsub hall
    match l, hsub, hall with
    | [], _, _ => simp
    | [_], _, _ => simp
    | x :: y :: l, hsub, hall =>
      rw [hall x (by simp), hall y (by simp)] at hsub
      simp at hsub
  · intro e he
    exact ⟨(t.each e he).1, e.ref, (t.each e he).2.1⟩

/-- What a tick sends for a routed universe. -/
theorem tick_sends (c : Ctrl) (hw : c.output.WF) (order : List Address)
    (ho : order.Perm c.output.keys) (now : Int) (a : Address) (r : Ref) (hr : Routed c a r) :
    (Due (bufferAt (c.heap r) a) now c.maxFPS ↔ ∃ e ∈ (c.tickOver order now).2, emAddress e = a) ∧
    ∀ e ∈ (c.tickOver order now).2, emAddress e = a →
      IsDMX e ∧ e.ref = r ∧ e.address = (c.heap r).udpAddress ∧
      emChannels e = (bufferAt (c.heap r) a).data.val := by
  have hn : order.Nodup := ho.nodup_iff.mpr hw
  have t := tickOver_spec c order now hn
  have hr : c.output.get a = some r := hr
  constructor
  · have h1 : (∃ e ∈ (c.tickOver order now).2, emAddress e = a) ↔
        a ∈ (c.tickOver order now).2.map emAddress := by
      rw [List.mem_map]
    rw [h1, t.addresses, List.mem_filter]
    have hmem : a ∈ order := ho.mem_iff.mpr ((GoMap.mem_keys_iff _ _).mpr (by rw [hr]; simp))
    have hdue : dueIn c now a = decide (Due (bufferAt (c.heap r) a) now c.maxFPS) := by
      simp [dueIn, hr]
    rw [hdue]
    simp [hmem]
  · intro e he ha
    obtain ⟨h1, h2, h3, h4⟩ := t.each e he
    rw [ha, hr] at h2
    injection h2 with h2
    subst h2
    rw [ha] at h4
    exact ⟨h1, rfl, h3, h4⟩

/-- C48: pending data whose last transmission is more than `maxFPS` nanoseconds ago is sent. -/
theorem C48_pending_is_sent (c : Ctrl) (hw : c.output.WF) (order : List Address)
    (ho : order.Perm c.output.keys) (now : Int) (a : Address) (r : Ref) (hr : Routed c a r) (b : DmxBuffer)
    (hb : (c.heap r).dmxBuffer.get a = some b) (hs : b.stale = true)
    (hl : b.lastUpdate < now - c.maxFPS) :
    ∃ e ∈ (c.tickOver order now).2, IsDMX e ∧ emAddress e = a ∧ e.ref = r ∧
      e.address = (c.heap r).udpAddress ∧ emChannels e = b.data.val := by
  have hbuf : bufferAt (c.heap r) a = b := by rw [bufferAt, hb]; rfl
  obtain ⟨h1, h2⟩ := tick_sends c hw order ho now a r hr
  rw [hbuf] at h1 h2
  obtain ⟨e, he, ha⟩ := h1.mp (Or.inl ⟨hs, hl⟩)
  obtain ⟨g1, g2, g3, g4⟩ := h2 e he ha
  exact ⟨e, he, g1, ha, g2, g3, g4⟩

/-- C49: a routed universe last transmitted more than 250 ms ago (or never, a missing buffer having
time 0) is sent; without pending data it is sent only then. -/
theorem C49_keep_alive (c : Ctrl) (hw : c.output.WF) (order : List Address)
    (ho : order.Perm c.output.keys) (now : Int) (a : Address) (r : Ref) (hr : Routed c a r) :
    ((bufferAt (c.heap r) a).lastUpdate < now - 250000000 →
      ∃ e ∈ (c.tickOver order now).2, IsDMX e ∧ emAddress e = a ∧ e.ref = r ∧
        emChannels e = (bufferAt (c.heap r) a).data.val) ∧
    ((bufferAt (c.heap r) a).stale = false → (∃ e ∈ (c.tickOver order now).2, emAddress e = a) →
      (bufferAt (c.heap r) a).lastUpdate < now - 250000000) := by
  obtain ⟨h1, h2⟩ := tick_sends c hw order ho now a r hr
  constructor
  · intro hl
    obtain ⟨e, he, ha⟩ := h1.mp (Or.inr hl)
    obtain ⟨g1, g2, _, g4⟩ := h2 e he ha
    exact ⟨e, he, g1, ha, g2, g4⟩
  · intro hs he
    rcases h1.mpr he with ⟨h, _⟩ | h
    · rw [hs] at h; cases h
    · exact h

/-- A state with one routed universe that has pending data. -/
def pendingState : Ctrl :=
  { Ctrl.init 40 with
    heap := fun _ => ⟨0, (Ctrl.init 40).heap 0 |>.node, ⟨[10, 0, 0, 1], 6454⟩, 254,
      [(⟨0, 1⟩, { DmxBuffer.zero with stale := true, lastUpdate := 5 })]⟩
    next := 1
    nodes := [0]
    output := [(⟨0, 1⟩, 0)] }

example : pendingState.output.WF ∧ [(⟨0, 1⟩ : Address)].Perm pendingState.output.keys ∧
    Routed pendingState ⟨0, 1⟩ 0 := by
  refine ⟨?_, List.Perm.refl _, rfl⟩
  show [(⟨0, 1⟩ : Address)].Nodup
  simp

/-! ### C50, C51 -/

/-- C50: the k-th datagram to a node entry has sequence number k modulo 256, counting from 1. -/
theorem C50_sequence_increments (m : Int) (os : List Op) (h : (Ctrl.init m).CanRun os) (r : Ref) :
    let es := ((Ctrl.init m).run os).2.filter (·.ref = r)
    es.map emSequence = (List.range es.length).map fun i => UInt8.ofNat (i + 1) := by
  intro es
  obtain ⟨n, _, h2⟩ := run_sequence (inv_init m) os h r
  have h0 : ((Ctrl.init m).heap r).sequence = 0 := rfl
  rw [h0] at h2
  have hl : es.length = n := by
    rw [← List.length_map (as := es) emSequence]
    show (List.map emSequence (List.filter _ _)).length = n
    rw [h2, seqFrom_length]
  rw [hl]
  show List.map emSequence (List.filter _ _) = _
  rw [h2, seqFrom_eq]
  simp

/-- C51 as stated. -/
def C51_statement : Prop := ∀ (m : Int) (os : List Op), (Ctrl.init m).CanRun os →
  ∀ e ∈ ((Ctrl.init m).run os).2, emSequence e ≠ 0

/-- C51, the part that holds: a sequence number is 0 exactly for every 256th datagram to the same
node entry. Missing: those datagrams. -/
theorem C51_partial (m : Int) (os : List Op) (h : (Ctrl.init m).CanRun os) (r : Ref) (k : Nat)
    (e : Emission) (he : (((Ctrl.init m).run os).2.filter (·.ref = r))[k]? = some e) :
    emSequence e = 0 ↔ (k + 1) % 256 = 0 := by
  have h50 := C50_sequence_increments m os h r
  simp only at h50
  generalize ((Ctrl.init m).run os).2.filter (·.ref = r) = es at *
  have hk : k < es.length := by
    rcases Nat.lt_or_ge k es.length with hlt | hge
    · exact hlt
    · rw [List.getElem?_eq_none hge] at he; cases he
  have h1 : (es.map emSequence)[k]? = some (emSequence e) := by
    rw [List.getElem?_map, he]; rfl
  rw [h50, List.getElem?_map, List.getElem?_range hk] at h1
  simp only [Option.map_some, Option.some.injEq] at h1
  rw [← h1, ← UInt8.toNat_inj]
  simp [UInt8.toNat_ofNat']

/-- `n` ticks for one universe, one second apart, after time `t`. -/
def ticksFrom (a : Address) (t : Int) : Nat → List Op
  | 0 => []
  | n + 1 => .tick [a] (t + second) :: ticksFrom a (t + second) n

theorem ticksFrom_emit (a : Address) (r : Ref) (n : Nat) : ∀ (c : Ctrl) (t : Int),
    c.output = [(a, r)] → (bufferAt (c.heap r) a).lastUpdate ≤ t →
    c.CanRun (ticksFrom a t n) ∧ (c.run (ticksFrom a t n)).2.length = n ∧
      ∀ e ∈ (c.run (ticksFrom a t n)).2, e.ref = r := by
  induction n with
  | zero => intro c t _ _; exact ⟨trivial, rfl, fun e he => by simp [Ctrl.run, ticksFrom] at he⟩
  | succ n ih =>
    intro c t ho hl
    have hwf : c.output.WF := by
      rw [ho]; show [a].Nodup; simp
    have hperm : [a].Perm c.output.keys := by rw [ho]; exact List.Perm.refl _
    have hr : Routed c a r := by
      show c.output.get a = some r
      rw [ho]; simp [GoMap.get]
    have hdue : Due (bufferAt (c.heap r) a) (t + second) c.maxFPS := by
      refine Or.inr ?_
      unfold second
      omega
    have tk := tickOver_spec c [a] (t + second) (by simp)
    obtain ⟨_, s2⟩ := tick_sends c hwf [a] hperm (t + second) a r hr
    have hlen : (c.tickOver [a] (t + second)).2.length = 1 := by
      rw [← List.length_map (f := emAddress), tk.addresses]
      have : dueIn c (t + second) a = true := by
        unfold dueIn
        rw [show c.output.get a = some r from hr]
        exact decide_eq_true hdue
      simp [this]
    have hbuf := tk.buffer r a
    rw [if_pos ⟨by simp, hr⟩] at hbuf
    obtain ⟨i1, i2, i3⟩ := ih (c.tickOver [a] (t + second)).1 (t + second) (by rw [tk.output, ho]) (by
      rw [bufferAt, hbuf]
      show (ticked _ _ _).lastUpdate ≤ _
      unfold ticked
      rw [if_pos hdue]
      exact Int.le_refl _)
    refine ⟨⟨hperm, i1⟩, ?_, ?_⟩
    · show (c.run (.tick [a] (t + second) :: ticksFrom a (t + second) n)).2.length = _
      rw [(run_cons _ _ _).2, List.length_append]
      show (c.tickOver [a] (t + second)).2.length + ((c.tickOver [a] (t + second)).1.run _).2.length = _
      rw [hlen, i2]
      omega
    · intro e he
      have he : e ∈ (c.run (.tick [a] (t + second) :: ticksFrom a (t + second) n)).2 := he
      rw [(run_cons _ _ _).2] at he
      rcases List.mem_append.mp he with he | he
      · have he : e ∈ (c.tickOver [a] (t + second)).2 := he
        have : emAddress e ∈ [a].filter (dueIn c (t + second)) := by
          rw [← tk.addresses]; exact List.mem_map_of_mem he
        have ha : emAddress e = a := by simpa using (List.mem_filter.mp this).1
        exact (s2 e he ha).2.1
      · exact i3 e he

/-- One discovered node, then `n` ticks one second apart. -/
def manyTicks (n : Nat) : List Op := .reply (replyOf ipA 1) 0 :: ticksFrom ⟨0, 1⟩ 0 n

theorem manyTicks_emit (n : Nat) : (Ctrl.init 40).CanRun (manyTicks n) ∧
    ((Ctrl.init 40).run (manyTicks n)).2.length = n ∧
    ∀ e ∈ ((Ctrl.init 40).run (manyTicks n)).2, e.ref = 0 := by
  have e1 : ((Ctrl.init 40).step (.reply (replyOf ipA 1) 0)).1 =
      addedNode (Ctrl.init 40) (configFromArtPollReply (replyOf ipA 1)) 0 := by
    show (Ctrl.init 40).pollReply _ _ = _
    rw [pollReply_eq, if_pos (replyOf_tracked ipA 1), updateNode_eq]
    rfl
  obtain ⟨i1, i2, i3⟩ := ticksFrom_emit ⟨0, 1⟩ 0 n
    (addedNode (Ctrl.init 40) (configFromArtPollReply (replyOf ipA 1)) 0) 0 (by
      show setAll [] (configFromArtPollReply (replyOf ipA 1)).outputs 0 = _
      rw [replyOf_outputs]; rfl) (by
      show (bufferAt ⟨_, _, _, _, newBuffers (configFromArtPollReply (replyOf ipA 1)).outputs⟩ _).lastUpdate ≤ 0
      rw [replyOf_outputs]
      decide)
  refine ⟨⟨trivial, ?_⟩, ?_, ?_⟩
  · rw [e1]; exact i1
  · unfold manyTicks
    rw [(run_cons _ _ _).2, e1]
    exact i2
  · intro e he
    unfold manyTicks at he
    rw [(run_cons _ _ _).2, e1] at he
    exact i3 e he

/-- The 256th datagram to a node has sequence number 0. -/
theorem C51_false : ¬ C51_statement := by
  intro h
  obtain ⟨h1, h2, h3⟩ := manyTicks_emit 256
  have hf : ((Ctrl.init 40).run (manyTicks 256)).2.filter (·.ref = 0) =
      ((Ctrl.init 40).run (manyTicks 256)).2 := by
    rw [List.filter_eq_self]
    intro e he
    exact decide_eq_true (h3 e he)
  have hget : (((Ctrl.init 40).run (manyTicks 256)).2)[255]? =
      some (((Ctrl.init 40).run (manyTicks 256)).2[255]'(by rw [h2]; decide)) :=
    List.getElem?_eq_getElem _
  have := (C51_partial 40 (manyTicks 256) h1 0 255 _ (by rw [hf]; exact hget)).mpr rfl
  exact h 40 _ h1 _ (List.getElem_mem _) this

example : ∀ n, (Ctrl.init 40).CanRun (manyTicks n) := fun n => (manyTicks_emit n).1

/-! ### C54 -/

/-- C54 as stated. -/
def C54_statement : Prop := ∀ (m : Int) (os : List Op), (Ctrl.init m).CanRun os →
  ∀ a r (d : Arr 512), Routed ((Ctrl.init m).run os).1 a r →
    ∃ b, ((((Ctrl.init m).run os).1.sendDMX d a).heap r).dmxBuffer.get a = some b ∧ b.data = d ∧
      b.stale = true

/-- C54, the part that holds: the data is stored, for transmission, exactly if the node entry has a
buffer for the universe, and a known node has one for every universe it claimed when it became known
and for every universe that a tick found routed to it; buffers never disappear. Missing: a universe
that a known node announced since the last tick. -/
theorem C54_partial (m : Int) (os : List Op) (h : (Ctrl.init m).CanRun os) (a : Address) (r : Ref) :
    let c := ((Ctrl.init m).run os).1
    (Routed c a r → ∀ d : Arr 512,
      ((∃ b, (c.heap r).dmxBuffer.get a = some b) ↔
        ∃ b, ((c.sendDMX d a).heap r).dmxBuffer.get a = some b ∧ b.data = d ∧ b.stale = true)) ∧
    (∀ p now, Tracked p → (∀ x ∈ c.nodes, ipOf c x ≠ p.ipAddress.val) →
      a ∈ (configFromArtPollReply p).outputs →
      ((c.pollReply p now).heap c.next).dmxBuffer.get a = some .zero) ∧
    (∀ order now, order.Perm c.output.keys → Routed c a r →
      ∃ b, ((c.tickOver order now).1.heap r).dmxBuffer.get a = some b) ∧
    (∀ os', c.CanRun os' → r < c.next → (∃ b, (c.heap r).dmxBuffer.get a = some b) →
      ∃ b, ((c.run os').1.heap r).dmxBuffer.get a = some b) := by
  intro c
  have hi : Inv c := (inv_init m).run os h
  refine ⟨?_, ?_, ?_, ?_⟩
  · intro hr d
    obtain ⟨_, _, _, _, _, _, _, f8⟩ := sendDMX_frame c d a
    rw [f8 r a, if_pos ⟨hr, rfl⟩]
    cases (c.heap r).dmxBuffer.get a with
    | none => simp
    | some b => simp
  · intro p now ht hn ha
    rw [pollReply_eq, if_pos ht]
    rcases updateNode_cases c (configFromArtPollReply p) now with ⟨s, hk, e⟩ | ⟨hk, e⟩
    · obtain ⟨hs, hip⟩ := known_some hk
      exact absurd (by rw [config_ip] at hip; exact hip) (hn s hs)
    · rw [e]
      have : ((addedNode c (configFromArtPollReply p) now).heap c.next).dmxBuffer =
          newBuffers (configFromArtPollReply p).outputs := by simp [addedNode]
      rw [this, newBuffers_get, if_pos ha]
  · intro order now hp hr
    have t := tick_spec hi (now := now) hp
    have := t.buffer r a
    rw [if_pos ⟨hp.mem_iff.mpr ((GoMap.mem_keys_iff _ _).mpr (by
      rw [show c.output.get a = some r from hr]; simp)), hr⟩] at this
    exact ⟨_, this⟩
  · intro os'
    have gen : ∀ (os' : List Op) (c : Ctrl), Inv c → c.CanRun os' → r < c.next →
        (∃ b, (c.heap r).dmxBuffer.get a = some b) →
        ∃ b, ((c.run os').1.heap r).dmxBuffer.get a = some b := by
      intro os'
      induction os' with
      | nil => intro c _ _ _ h; exact h
      | cons o os' ih =>
        intro c hi hc hlt hb
        rw [(run_cons c o os').1]
        obtain ⟨b, hb⟩ := hb
        refine ih _ (hi.step o hc.1) hc.2 ?_ ?_
        · cases o with
          | tick order now =>
            rw [(tick_spec hi (now := now) hc.1).next]; exact hlt
          | send d x =>
            show r < (c.sendDMX d x).next
            rw [(sendDMX_frame c d x).1]; exact hlt
          | reply p now =>
            exact Nat.lt_of_lt_of_le hlt (quiet_step hi (.reply p now) hc.1 id (fun _ => id)).1
          | gc clock =>
            exact Nat.lt_of_lt_of_le hlt (quiet_step hi (.gc clock) hc.1 id (fun _ => id)).1
          | restart => exact hlt
        · cases o with
          | tick order now =>
            have := (tick_spec hi (now := now) hc.1).buffer r a
            rw [this]
            split
            · exact ⟨_, rfl⟩
            · exact ⟨b, hb⟩
          | send d x =>
            show ∃ b, ((c.sendDMX d x).heap r).dmxBuffer.get a = some b
            obtain ⟨_, _, _, _, _, _, _, f8⟩ := sendDMX_frame c d x
            rw [f8]
            split
            · rename_i hx
              rw [← hx.2, hb]; exact ⟨_, rfl⟩
            · exact ⟨b, hb⟩
          | reply p now =>
            refine ⟨b, ?_⟩
            rw [(quiet_step hi (.reply p now) hc.1 id (fun _ => id)).2.2.1 r hlt, hb]
          | gc clock =>
            refine ⟨b, ?_⟩
            rw [(quiet_step hi (.gc clock) hc.1 id (fun _ => id)).2.2.1 r hlt, hb]
          | restart => exact ⟨b, hb⟩
    intro hc hlt hb
    exact gen os' c hi hc hlt hb

/-- A known node announces universe 2 instead of 1. -/
def moved : List Op := [.reply (replyOf ipA 1) 0, .reply (replyOf ipA 2) second]

theorem moved_state : ∃ c, ((Ctrl.init 40).run moved).1 = c ∧ c.output = [(⟨0, 2⟩, 0)] ∧
    c.maxFPS = 40 ∧ (c.heap 0).dmxBuffer = [(⟨0, 1⟩, .zero)] := by
  have e1 : (Ctrl.init 40).pollReply (replyOf ipA 1) 0 =
      addedNode (Ctrl.init 40) (configFromArtPollReply (replyOf ipA 1)) 0 := by
    rw [pollReply_eq, if_pos (replyOf_tracked ipA 1), updateNode_eq]
    rfl
  have hk : known (addedNode (Ctrl.init 40) (configFromArtPollReply (replyOf ipA 1)) 0)
      (configFromArtPollReply (replyOf ipA 2)).ip = some 0 := by
    unfold known
    show [0].find? (fun r => (configFromArtPollReply (replyOf ipA 2)).ip ==
      ((addedNode (Ctrl.init 40) (configFromArtPollReply (replyOf ipA 1)) 0).heap r).node.ip) = some 0
    rw [List.find?_cons_of_pos]
    show ((configFromArtPollReply (replyOf ipA 2)).ip == (configFromArtPollReply (replyOf ipA 1)).ip) = true
    rw [config_ip, config_ip]
    decide
  have e2 : (addedNode (Ctrl.init 40) (configFromArtPollReply (replyOf ipA 1)) 0).pollReply
      (replyOf ipA 2) second =
      updatedAt (addedNode (Ctrl.init 40) (configFromArtPollReply (replyOf ipA 1)) 0) 0
        (configFromArtPollReply (replyOf ipA 2)) second := by
    rw [pollReply_eq, if_pos (replyOf_tracked ipA 2), updateNode_eq, hk]
  refine ⟨_, rfl, ?_⟩
  have e3 : ((Ctrl.init 40).run moved).1 =
      ((Ctrl.init 40).pollReply (replyOf ipA 1) 0).pollReply (replyOf ipA 2) second := rfl
  rw [e3, e1, e2]
  refine ⟨?_, rfl, ?_⟩
  · show setAll (delAll (setAll [] (configFromArtPollReply (replyOf ipA 1)).outputs 0)
      (configFromArtPollReply (replyOf ipA 1)).outputs) (configFromArtPollReply (replyOf ipA 2)).outputs 0 = _
    rw [replyOf_outputs, replyOf_outputs]
    decide
  · show newBuffers (configFromArtPollReply (replyOf ipA 1)).outputs = _
    rw [replyOf_outputs]
    rfl

/-- A full-on frame. -/
def fullOn : Arr 512 := ⟨List.replicate 512 0xff, List.length_replicate⟩

theorem C54_false : ¬ C54_statement := by
  intro h
  obtain ⟨c, hc, h1, _, h2⟩ := moved_state
  have hcan : (Ctrl.init 40).CanRun moved := ⟨trivial, trivial, trivial⟩
  have hr : Routed ((Ctrl.init 40).run moved).1 ⟨0, 2⟩ 0 := by
    show GoMap.get _ _ = _
    rw [hc, h1]; rfl
  obtain ⟨b, hb⟩ := ((C54_partial 40 moved hcan ⟨0, 2⟩ 0).1 hr fullOn).mpr (h 40 moved hcan ⟨0, 2⟩ 0 fullOn hr)
  rw [hc, h2] at hb
  exact absurd hb (by simp [GoMap.get])

/-! ### C46 -/

/-- C46 as stated. -/
def C46_statement : Prop := ∀ (m : Int) (os os' : List Op) (a : Address) (r : Ref) (d : Arr 512),
  (Ctrl.init m).CanRun (os ++ .send d a :: os') → Routed ((Ctrl.init m).run os).1 a r →
  (∀ o ∈ os', ¬ SendsTo a o) →
  ∀ e ∈ ((((Ctrl.init m).run os).1.sendDMX d a).run os').2, e.ref = r → emAddress e = a →
    emChannels e = d.val

/-- C46, exactly: every later datagram of the node entry for the universe carries the data sent last if the
entry had a buffer for it (see C54), and zeros if it had none, whatever else happens. -/
theorem C46_exact (m : Int) (os os' : List Op) (a : Address) (r : Ref) (d : Arr 512)
    (h : (Ctrl.init m).CanRun (os ++ .send d a :: os')) (hr : Routed ((Ctrl.init m).run os).1 a r)
    (hn : ∀ o ∈ os', ¬ SendsTo a o) :
    ∀ e ∈ ((((Ctrl.init m).run os).1.sendDMX d a).run os').2, e.ref = r → emAddress e = a →
      ((∃ b, (((Ctrl.init m).run os).1.heap r).dmxBuffer.get a = some b) → emChannels e = d.val) ∧
      ((¬ ∃ b, (((Ctrl.init m).run os).1.heap r).dmxBuffer.get a = some b) →
        emChannels e = List.replicate 512 0) := by
  rw [canRun_append] at h
  have hi := (inv_init m).run os h.1
  have hi' : Inv (((Ctrl.init m).run os).1.sendDMX d a) := hi.sendDMX d a
  obtain ⟨f1, _, _, _, _, _, _, f8⟩ := sendDMX_frame ((Ctrl.init m).run os).1 d a
  have hlt : r < (((Ctrl.init m).run os).1.sendDMX d a).next := by
    rw [f1]; exact hi.lt_next r (hi.out a r hr).1
  have gen : ∀ (x : Arr 512) (os' : List Op) (c : Ctrl), Inv c → c.CanRun os' → (∀ o ∈ os', ¬ SendsTo a o) →
      r < c.next → (bufferAt (c.heap r) a).data = x →
      ∀ e ∈ (c.run os').2, e.ref = r → emAddress e = a → emChannels e = x.val := by
    intro x os'
    induction os' with
    | nil => intro c _ _ _ _ _ e he; simp [Ctrl.run] at he
    | cons o os' ih =>
      intro c hi hc hn hlt hd e he
      rw [(run_cons c o os').2] at he
      have hno := hn o (by simp)
      have hn' : ∀ o ∈ os', ¬ SendsTo a o := fun x hx => hn x (by simp [hx])
      cases o with
      | tick order now =>
        have t := tick_spec hi (now := now) hc.1
        rcases List.mem_append.mp he with he | he
        · intro h1 h2
          obtain ⟨_, _, _, g4⟩ := t.each e he
          rw [g4, h1, h2, hd]
        · refine ih _ (hi.step _ hc.1) hc.2 hn' ?_ ?_ e he
          · rw [t.next]; exact hlt
          · rw [bufferAt, t.buffer]
            split
            · show (ticked (bufferAt (c.heap r) a) now c.maxFPS).data = x
              unfold ticked
              split
              · exact hd
              · exact hd
            · exact hd
      | send d' y =>
        obtain ⟨f1, _, _, _, _, _, _, f8⟩ := sendDMX_frame c d' y
        refine ih _ (hi.step _ hc.1) hc.2 hn' ?_ ?_ e he
        · show r < (c.sendDMX d' y).next
          rw [f1]; exact hlt
        · show (bufferAt ((c.sendDMX d' y).heap r) a).data = x
          rw [bufferAt, f8, if_neg]
          · exact hd
          · rintro ⟨_, hx⟩
            exact hno hx.symm
      | reply p now =>
        obtain ⟨q1, _, q3, _⟩ := quiet_step hi (.reply p now) hc.1 id (fun _ => id)
        refine ih _ (hi.step _ hc.1) hc.2 hn' (Nat.lt_of_lt_of_le hlt q1) ?_ e he
        rw [bufferAt, q3 r hlt]; exact hd
      | gc clock =>
        obtain ⟨q1, _, q3, _⟩ := quiet_step hi (.gc clock) hc.1 id (fun _ => id)
        refine ih _ (hi.step _ hc.1) hc.2 hn' (Nat.lt_of_lt_of_le hlt q1) ?_ e he
        rw [bufferAt, q3 r hlt]; exact hd
      | restart => exact ih _ (hi.step _ hc.1) hc.2 hn' hlt hd e he
  intro e he h1 h2
  refine ⟨fun ⟨b, hb⟩ => gen d os' _ hi' h.2.2 hn hlt ?_ e he h1 h2,
    fun hb => gen (Arr.zero 512) os' _ hi' h.2.2 hn hlt ?_ e he h1 h2⟩
  · rw [bufferAt, f8, if_pos ⟨hr, rfl⟩, hb]
    rfl
  · rw [bufferAt, f8, if_pos ⟨hr, rfl⟩]
    cases hg : (((Ctrl.init m).run os).1.heap r).dmxBuffer.get a with
    | none => rfl
    | some b => exact absurd ⟨b, hg⟩ hb

/-- C46, the part that holds: if the node entry has a buffer for the universe, every later datagram of that
entry for it carries exactly the data sent last. Missing: data that SendDMXToAddress dropped because there
was no buffer, of which `C46_exact` says what is sent in its place. -/
theorem C46_partial (m : Int) (os os' : List Op) (a : Address) (r : Ref) (d : Arr 512)
    (h : (Ctrl.init m).CanRun (os ++ .send d a :: os')) (hr : Routed ((Ctrl.init m).run os).1 a r)
    (hb : ∃ b, (((Ctrl.init m).run os).1.heap r).dmxBuffer.get a = some b)
    (hn : ∀ o ∈ os', ¬ SendsTo a o) :
    ∀ e ∈ ((((Ctrl.init m).run os).1.sendDMX d a).run os').2, e.ref = r → emAddress e = a →
      emChannels e = d.val :=
  fun e he h1 h2 => (C46_exact m os os' a r d h hr hn e he h1 h2).1 hb

/-- The data sent before the first tick after a known node announced a new universe is lost: the tick
sends zeros. -/
theorem C46_false : ¬ C46_statement := by
  intro h
  obtain ⟨c, hc, h1, h0, h2⟩ := moved_state
  have hget : c.output.get ⟨0, 2⟩ = some 0 := by rw [h1]; rfl
  have hsend : c.sendDMX fullOn ⟨0, 2⟩ = c := by
    have hb : (c.heap 0).dmxBuffer.get ⟨0, 2⟩ = none := by rw [h2]; rfl
    simp only [Ctrl.sendDMX, hget, ControlledNode.setDMXBuffer, hb, store_self]
  have hwf : c.output.WF := by rw [h1]; show [_].Nodup; simp
  have hperm : [(⟨0, 2⟩ : Address)].Perm c.output.keys := by rw [h1]; exact List.Perm.refl _
  have hbuf : bufferAt (c.heap 0) ⟨0, 2⟩ = .zero := by rw [bufferAt, h2]; rfl
  obtain ⟨k, _⟩ := C49_keep_alive c hwf [⟨0, 2⟩] hperm (2 * second) ⟨0, 2⟩ 0 hget
  obtain ⟨e, he, _, g2, g3, g4⟩ := k (by rw [hbuf]; decide)
  have hcan : (Ctrl.init 40).CanRun (moved ++ .send fullOn ⟨0, 2⟩ :: [.tick [⟨0, 2⟩] (2 * second)]) := by
    rw [canRun_append]
    refine ⟨⟨trivial, trivial, trivial⟩, trivial, ?_, trivial⟩
    rw [hc]
    show List.Perm _ (c.sendDMX fullOn ⟨0, 2⟩).output.keys
    rw [hsend]; exact hperm
  have := h 40 moved [.tick [⟨0, 2⟩] (2 * second)] ⟨0, 2⟩ 0 fullOn hcan (by rw [hc]; exact hget)
    (by intro o ho; simp only [List.mem_cons, List.not_mem_nil, or_false] at ho; subst ho; exact id) e
    (by
      rw [hc, hsend, (run_cons _ _ _).2]
      exact List.mem_append_left _ he) g3 g2
  rw [g4, hbuf] at this
  have h3 : (0 : UInt8) ∈ fullOn.val := by
    rw [← this]
    show (0 : UInt8) ∈ List.replicate 512 0
    exact List.mem_replicate.mpr ⟨by decide, rfl⟩
  exact absurd (List.mem_replicate.mp h3).2 (by decide)

example : ∃ c r b, ((Ctrl.init 40).run [.reply (replyOf ipA 1) 0]).1 = c ∧ Routed c ⟨0, 1⟩ r ∧
    (c.heap r).dmxBuffer.get ⟨0, 1⟩ = some b := by
  have e1 : (Ctrl.init 40).pollReply (replyOf ipA 1) 0 =
      addedNode (Ctrl.init 40) (configFromArtPollReply (replyOf ipA 1)) 0 := by
    rw [pollReply_eq, if_pos (replyOf_tracked ipA 1), updateNode_eq]
    rfl
  refine ⟨_, 0, .zero, rfl, ?_, ?_⟩
  · show ((Ctrl.init 40).pollReply (replyOf ipA 1) 0).output.get ⟨0, 1⟩ = some 0
    rw [e1]
    show (setAll [] (configFromArtPollReply (replyOf ipA 1)).outputs 0).get _ = _
    rw [replyOf_outputs]; rfl
  · show (((Ctrl.init 40).pollReply (replyOf ipA 1) 0).heap 0).dmxBuffer.get ⟨0, 1⟩ = some .zero
    rw [e1]
    show (newBuffers (configFromArtPollReply (replyOf ipA 1)).outputs).get _ = _
    rw [replyOf_outputs]; rfl

/-! ### C53 -/

/-- C53: when a node becomes known, then whatever happens before the next tick (replies, gc passes,
sends, restarts), that tick sends a datagram for every universe that is routed to the new entry by
then; it carries all zeros for every universe SendDMXToAddress was not called for. (`now` is later than
250 ms after the zero time.) -/
theorem C53_blackout_first (m : Int) (os : List Op) (h : (Ctrl.init m).CanRun os) (p : ArtPollReply)
    (t : Int) (ht : Tracked p)
    (hnew : ∀ x ∈ ((Ctrl.init m).run os).1.nodes, ipOf ((Ctrl.init m).run os).1 x ≠ p.ipAddress.val)
    (os' : List Op) (h' : (((Ctrl.init m).run os).1.pollReply p t).CanRun os')
    (hnt : ∀ o ∈ os', ¬ IsTick o) (order : List Address) (now : Int) (hnow : 250000000 < now) :
    let r := ((Ctrl.init m).run os).1.next
    let c := ((((Ctrl.init m).run os).1.pollReply p t).run os').1
    ipOf (((Ctrl.init m).run os).1.pollReply p t) r = p.ipAddress.val ∧
    (order.Perm c.output.keys → ∀ a, Routed c a r →
      ∃ e ∈ (c.tickOver order now).2, IsDMX e ∧ e.ref = r ∧ emAddress e = a ∧
        ((∀ o ∈ os', ¬ SendsTo a o) → emChannels e = List.replicate 512 0)) := by
  intro r c
  have hi := (inv_init m).run os h
  have e : ((Ctrl.init m).run os).1.pollReply p t =
      addedNode ((Ctrl.init m).run os).1 (configFromArtPollReply p) t := by
    rw [pollReply_eq, if_pos ht]
    rcases updateNode_cases ((Ctrl.init m).run os).1 (configFromArtPollReply p) t with ⟨s, hk, e⟩ | ⟨_, e⟩
    · obtain ⟨hs, hip⟩ := known_some hk
      exact absurd (by rw [config_ip] at hip; exact hip) (hnew s hs)
    · exact e
  have hi1 : Inv (((Ctrl.init m).run os).1.pollReply p t) := hi.pollReply p t
  have hi2 : Inv c := hi1.run os' h'
  refine ⟨?_, ?_⟩
  · rw [e]
    have : ((addedNode ((Ctrl.init m).run os).1 (configFromArtPollReply p) t).heap r).node =
      configFromArtPollReply p := by simp [addedNode, r]
    rw [ipOf, this, config_ip]
  · intro hperm a hr
    -- until the tick every buffer of the entry is untransmitted
    have gen : ∀ (os' : List Op) (c : Ctrl), Inv c → c.CanRun os' → (∀ o ∈ os', ¬ IsTick o) →
        r < c.next → (bufferAt (c.heap r) a).lastUpdate = 0 →
        (bufferAt ((c.run os').1.heap r) a).lastUpdate = 0 ∧
        ((∀ o ∈ os', ¬ SendsTo a o) →
          (bufferAt ((c.run os').1.heap r) a).data = (bufferAt (c.heap r) a).data) := by
      intro os'
      induction os' with
      | nil => intro c _ _ _ _ h; exact ⟨h, fun _ => rfl⟩
      | cons o os' ih =>
        intro c hi hc hnt hlt h0
        have hno := hnt o (by simp)
        have hn' : ∀ o ∈ os', ¬ IsTick o := fun x hx => hnt x (by simp [hx])
        rw [(run_cons c o os').1]
        have step : r < (c.step o).1.next ∧ (bufferAt ((c.step o).1.heap r) a).lastUpdate = 0 ∧
            (¬ SendsTo a o → (bufferAt ((c.step o).1.heap r) a).data = (bufferAt (c.heap r) a).data) := by
          cases o with
          | tick order now => exact absurd trivial hno
          | send d x =>
            obtain ⟨f1, _, _, _, _, _, _, f8⟩ := sendDMX_frame c d x
            show r < (c.sendDMX d x).next ∧ (bufferAt ((c.sendDMX d x).heap r) a).lastUpdate = 0 ∧
              (_ → (bufferAt ((c.sendDMX d x).heap r) a).data = _)
            rw [f1]
            refine ⟨hlt, ?_, ?_⟩
            · rw [bufferAt, f8]
              split
              · rename_i hx
                rw [bufferAt, hx.2] at h0
                cases hg : (c.heap r).dmxBuffer.get x with
                | none => rfl
                | some b => rw [hg] at h0; exact h0
              · exact h0
            · intro hx
              have hx : ¬ x = a := hx
              rw [bufferAt, f8, if_neg fun h => hx h.2.symm]
              rfl
          | reply p now =>
            obtain ⟨q1, _, q3, _⟩ := quiet_step hi (.reply p now) hc.1 id (fun _ => id)
            refine ⟨Nat.lt_of_lt_of_le hlt q1, ?_, fun _ => ?_⟩
            · rw [bufferAt, q3 r hlt]; exact h0
            · rw [bufferAt, q3 r hlt]; rfl
          | gc clock =>
            obtain ⟨q1, _, q3, _⟩ := quiet_step hi (.gc clock) hc.1 id (fun _ => id)
            refine ⟨Nat.lt_of_lt_of_le hlt q1, ?_, fun _ => ?_⟩
            · rw [bufferAt, q3 r hlt]; exact h0
            · rw [bufferAt, q3 r hlt]; rfl
          | restart => exact ⟨hlt, h0, fun _ => rfl⟩
        obtain ⟨s1, s2, s3⟩ := step
        obtain ⟨i1, i2⟩ := ih _ (hi.step o hc.1) hc.2 hn' s1 s2
        exact ⟨i1, fun hs => by rw [i2 fun x hx => hs x (by simp [hx]), s3 (hs o (by simp))]⟩
    have hb0 : bufferAt ((((Ctrl.init m).run os).1.pollReply p t).heap r) a = .zero := by
      rw [e]
      have : ((addedNode ((Ctrl.init m).run os).1 (configFromArtPollReply p) t).heap r).dmxBuffer =
          newBuffers (configFromArtPollReply p).outputs := by simp [addedNode, r]
      rw [bufferAt, this, newBuffers_get]
      split <;> rfl
    have hlt : r < (((Ctrl.init m).run os).1.pollReply p t).next := by
      rw [e]; exact Nat.lt_succ_self _
    obtain ⟨g1, g2⟩ := gen os' _ hi1 h' hnt hlt (by rw [hb0]; rfl)
    obtain ⟨k, _⟩ := C49_keep_alive c hi2.wfOut order hperm now a r hr
    obtain ⟨em, he, h1, h2, h3, h4⟩ := k (by rw [g1]; omega)
    refine ⟨em, he, h1, h3, h2, ?_⟩
    intro hs
    rw [h4, g2 hs, hb0]
    rfl

example : Tracked (replyOf ipA 1) ∧
    ∀ x ∈ (Ctrl.init 40).nodes, ipOf (Ctrl.init 40) x ≠ (replyOf ipA 1).ipAddress.val :=
  ⟨replyOf_tracked _ _, by simp [Ctrl.init]⟩

end Verif.Props
