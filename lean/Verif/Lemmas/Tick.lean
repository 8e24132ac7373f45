import Verif.Lemmas.Controller
/-
One tick of the update loop: what is sent and how the state changes.
-/
namespace Verif.Artnet
open Spec Packet Code

/-- `n` consecutive sequence numbers after `s`. -/
def seqFrom (s : UInt8) : Nat → List UInt8
  | 0 => []
  | n + 1 => (s + 1) :: seqFrom (s + 1) n

/-- Universe `a` is routed and due. -/
def dueIn (c : Ctrl) (now : Int) (a : Address) : Bool :=
  match c.output.get a with
  | none => false
  | some r => decide (Due (bufferAt (c.heap r) a) now c.maxFPS)

/-- The buffer of a routed universe after a tick. -/
def ticked (b : DmxBuffer) (now maxFPS : Int) : DmxBuffer :=
  if Due b now maxFPS then { b with lastUpdate := now, stale := false } else b

/-- The effect of visiting the universes in `order`, starting in `c`. -/
structure TickSpec (c : Ctrl) (order : List Address) (now : Int) (c' : Ctrl) (es : List Emission) :
    Prop where
  next : c'.next = c.next
  nodes : c'.nodes = c.nodes
  output : c'.output = c.output
  input : c'.input = c.input
  maxFPS : c'.maxFPS = c.maxFPS
  lastSeen : ∀ r, (c'.heap r).lastSeen = (c.heap r).lastSeen
  node : ∀ r, (c'.heap r).node = (c.heap r).node
  udp : ∀ r, (c'.heap r).udpAddress = (c.heap r).udpAddress
  idle : ∀ r, (∀ a ∈ order, c.output.get a ≠ some r) → c'.heap r = c.heap r
  buffer : ∀ r a, (c'.heap r).dmxBuffer.get a =
    if a ∈ order ∧ c.output.get a = some r then some (ticked (bufferAt (c.heap r) a) now c.maxFPS)
    else (c.heap r).dmxBuffer.get a
  addresses : es.map emAddress = order.filter (dueIn c now)
  each : ∀ e ∈ es, IsDMX e ∧ c.output.get (emAddress e) = some e.ref ∧
    e.address = (c.heap e.ref).udpAddress ∧
    emChannels e = (bufferAt (c.heap e.ref) (emAddress e)).data.val
  sequence : ∀ r, ∃ n, (c'.heap r).sequence = (c.heap r).sequence + UInt8.ofNat n ∧
    (es.filter (·.ref = r)).map emSequence = seqFrom (c.heap r).sequence n

theorem bufferAt_withBuffer (cn : ControlledNode) (a : Address) :
    bufferAt (withBuffer cn a) a = bufferAt cn a := by
  rw [bufferAt, withBuffer_get]; rfl

theorem datagram_facts (r : Ref) (u : UDPAddr) (cn : ControlledNode) (a : Address) :
    IsDMX ⟨r, u, datagram cn a⟩ ∧ emAddress ⟨r, u, datagram cn a⟩ = a ∧
    emSequence ⟨r, u, datagram cn a⟩ = cn.sequence + 1 ∧
    emChannels ⟨r, u, datagram cn a⟩ = (bufferAt cn a).data.val := by
  have hl := (bufferAt cn a).data.len
  refine ⟨⟨?_, rfl, rfl, rfl⟩, rfl, rfl, rfl⟩
  simp [datagram, hl]

theorem uint8_add_ofNat_succ (s : UInt8) (n : Nat) : s + 1 + UInt8.ofNat n = s + UInt8.ofNat (n + 1) := by
  apply UInt8.toNat_inj.mp
  simp only [UInt8.toNat_add, UInt8.toNat_ofNat', UInt8.toNat_one]
  omega

theorem ofNat_zero8 (s : UInt8) : s = s + UInt8.ofNat 0 := by
  apply UInt8.toNat_inj.mp
  have := s.toNat_lt
  simp only [UInt8.toNat_add, UInt8.toNat_ofNat']
  omega

/-- The first universe, not due or due, as a TickSpec of a singleton. -/
theorem tickAt_spec (c : Ctrl) (a : Address) (r : Ref) (now : Int) (hr : c.output.get a = some r) :
    TickSpec c [a] now (c.tickAt a r now).1 (c.tickAt a r now).2 := by
  rw [tickAt_eq]
  obtain ⟨w1, w2, w3, w4⟩ := withBuffer_fields (c.heap r) a
  have hdue : dueIn c now a = decide (Due (bufferAt (c.heap r) a) now c.maxFPS) := by
    simp [dueIn, hr]
  by_cases hd : Due (bufferAt (c.heap r) a) now c.maxFPS
  · rw [if_pos hd]
    obtain ⟨d1, d2, d3, d4⟩ := datagram_facts r (c.heap r).udpAddress (withBuffer (c.heap r) a) a
    refine ⟨rfl, rfl, rfl, rfl, rfl, ?_, ?_, ?_, ?_, ?_, ?_, ?_, ?_⟩
    · intro x
      by_cases hx : x = r
      · subst hx; simp only [store_heap_same, sent, w1]
      · simp only [store_heap_ne _ _ hx]
    · intro x
      by_cases hx : x = r
      · subst hx; simp only [store_heap_same, sent, w2]
      · simp only [store_heap_ne _ _ hx]
    · intro x
      by_cases hx : x = r
      · subst hx; simp only [store_heap_same, sent, w3]
      · simp only [store_heap_ne _ _ hx]
    · intro x h
      exact store_heap_ne _ _ fun hx => h a (by simp) (hx ▸ hr)
    · intro x y
      by_cases hx : x = r
      · subst hx
        simp only [store_heap_same, sent]
        by_cases hy : y = a
        · subst hy
          simp [GoMap.get_set_same, hr, ticked, hd, bufferAt_withBuffer]
        · rw [GoMap.get_set_ne _ _ hy, withBuffer_get_ne _ hy, if_neg (by simp [hy])]
      · simp only [store_heap_ne _ _ hx]
        rw [if_neg]
        rintro ⟨h1, h2⟩
        simp at h1
        rw [h1, hr] at h2
        exact hx (by injection h2 with h2; exact h2.symm)
    · simp only [List.map_cons, List.map_nil, d2]
      simp [hdue, hd]
    · intro e he
      simp only [List.mem_cons, List.not_mem_nil, or_false] at he
      subst he
      rw [d2, d4, bufferAt_withBuffer]
      exact ⟨d1, hr, rfl, rfl⟩
    · intro x
      by_cases hx : x = r
      · subst hx
        refine ⟨1, ?_, ?_⟩
        · simp only [store_heap_same, sent, w4]; rfl
        · simp [d3, seqFrom, w4]
      · refine ⟨0, ?_, ?_⟩
        · simp only [store_heap_ne _ _ hx]
          exact ofNat_zero8 _
        · have : ¬ r = x := fun h => hx h.symm
          simp [seqFrom, this]
  · rw [if_neg hd]
    refine ⟨rfl, rfl, rfl, rfl, rfl, ?_, ?_, ?_, ?_, ?_, ?_, ?_, ?_⟩
    · intro x
      by_cases hx : x = r
      · subst hx; simp only [store_heap_same, w1]
      · simp only [store_heap_ne _ _ hx]
    · intro x
      by_cases hx : x = r
      · subst hx; simp only [store_heap_same, w2]
      · simp only [store_heap_ne _ _ hx]
    · intro x
      by_cases hx : x = r
      · subst hx; simp only [store_heap_same, w3]
      · simp only [store_heap_ne _ _ hx]
    · intro x h
      exact store_heap_ne _ _ fun hx => h a (by simp) (hx ▸ hr)
    · intro x y
      by_cases hx : x = r
      · subst hx
        simp only [store_heap_same]
        by_cases hy : y = a
        · subst hy
          simp [withBuffer_get, hr, ticked, hd]
        · rw [withBuffer_get_ne _ hy, if_neg (by simp [hy])]
      · simp only [store_heap_ne _ _ hx]
        rw [if_neg]
        rintro ⟨h1, h2⟩
        simp at h1
        rw [h1, hr] at h2
        exact hx (by injection h2 with h2; exact h2.symm)
    · simp [hdue, hd]
    · intro e he
      simp at he
    · intro x
      refine ⟨0, ?_, by simp [seqFrom]⟩
      by_cases hx : x = r
      · subst hx
        simp only [store_heap_same, w4]
        exact ofNat_zero8 _
      · simp only [store_heap_ne _ _ hx]
        exact ofNat_zero8 _

theorem seqFrom_append (s : UInt8) (m n : Nat) :
    seqFrom s m ++ seqFrom (s + UInt8.ofNat m) n = seqFrom s (m + n) := by
  induction m generalizing s with
  | zero => rw [← ofNat_zero8]; simp [seqFrom]
  | succ m ih =>
    rw [← uint8_add_ofNat_succ, show m + 1 + n = (m + n) + 1 by omega]
    simp only [seqFrom, List.cons_append]
    rw [ih]

theorem ofNat_add8 (s : UInt8) (m n : Nat) :
    s + UInt8.ofNat m + UInt8.ofNat n = s + UInt8.ofNat (m + n) := by
  apply UInt8.toNat_inj.mp
  simp only [UInt8.toNat_add, UInt8.toNat_ofNat']
  omega

/-- Two consecutive parts of a tick compose. -/
theorem TickSpec.append {c c1 c2 : Ctrl} {o1 o2 : List Address} {now : Int} {es1 es2 : List Emission}
    (h1 : TickSpec c o1 now c1 es1) (h2 : TickSpec c1 o2 now c2 es2) (hd : ∀ a ∈ o2, a ∉ o1) :
    TickSpec c (o1 ++ o2) now c2 (es1 ++ es2) := by
  have hbuf : ∀ r, ∀ a, a ∉ o1 → bufferAt (c1.heap r) a = bufferAt (c.heap r) a := by
    intro r a ha
    rw [bufferAt, h1.buffer, if_neg (fun h => ha h.1)]; rfl
  have hdue : ∀ a ∈ o2, dueIn c1 now a = dueIn c now a := by
    intro a ha
    unfold dueIn
    rw [h1.output]
    cases c.output.get a with
    | none => rfl
    | some r => simp only [hbuf r a (hd a ha), h1.maxFPS]
  have hin : ∀ e ∈ es2, emAddress e ∈ o2 := by
    intro e he
    have : emAddress e ∈ es2.map emAddress := List.mem_map.mpr ⟨e, he, rfl⟩
    rw [h2.addresses] at this
    exact (List.mem_filter.mp this).1
  refine ⟨h2.next.trans h1.next, h2.nodes.trans h1.nodes, h2.output.trans h1.output,
    h2.input.trans h1.input, h2.maxFPS.trans h1.maxFPS, fun r => (h2.lastSeen r).trans (h1.lastSeen r),
    fun r => (h2.node r).trans (h1.node r), fun r => (h2.udp r).trans (h1.udp r), ?_, ?_, ?_, ?_, ?_⟩
  · intro r h
    rw [h2.idle r fun a ha => by rw [h1.output]; exact h a (by simp [ha]),
      h1.idle r fun a ha => h a (by simp [ha])]
  · intro r a
    rw [h2.buffer, h1.output]
    by_cases ho : c.output.get a = some r
    · by_cases ha2 : a ∈ o2
      · rw [if_pos ⟨ha2, ho⟩, if_pos ⟨by simp [ha2], ho⟩, hbuf r a (hd a ha2), h1.maxFPS]
      · rw [if_neg fun h => ha2 h.1, h1.buffer]
        by_cases ha1 : a ∈ o1
        · rw [if_pos ⟨ha1, ho⟩, if_pos ⟨by simp [ha1], ho⟩]
        · rw [if_neg fun h => ha1 h.1, if_neg fun h => (by simp [ha1, ha2] at h)]
    · rw [if_neg fun h => ho h.2, if_neg fun h => ho h.2, h1.buffer, if_neg fun h => ho h.2]
  · rw [List.map_append, List.filter_append, h1.addresses, h2.addresses]
    congr 1
    exact List.filter_congr hdue
  · intro e he
    rcases List.mem_append.mp he with he | he
    · exact h1.each e he
    · obtain ⟨g1, g2, g3, g4⟩ := h2.each e he
      rw [h1.output] at g2
      refine ⟨g1, g2, by rw [g3, h1.udp], ?_⟩
      rw [g4, hbuf _ _ (hd _ (hin e he))]
  · intro r
    obtain ⟨m, hm1, hm2⟩ := h1.sequence r
    obtain ⟨n, hn1, hn2⟩ := h2.sequence r
    refine ⟨m + n, ?_, ?_⟩
    · rw [hn1, hm1, ofNat_add8]
    · rw [List.filter_append, List.map_append, hm2, hn2, hm1, seqFrom_append]

theorem TickSpec.refl (c : Ctrl) (now : Int) : TickSpec c [] now c [] :=
  ⟨rfl, rfl, rfl, rfl, rfl, fun _ => rfl, fun _ => rfl, fun _ => rfl, fun _ _ => rfl,
    fun r a => by simp, by simp, fun e he => by simp at he,
    fun r => ⟨0, ofNat_zero8 _, by simp [seqFrom]⟩⟩

theorem TickSpec.skip (c : Ctrl) (now : Int) (a : Address) (h : c.output.get a = none) :
    TickSpec c [a] now c [] :=
  ⟨rfl, rfl, rfl, rfl, rfl, fun _ => rfl, fun _ => rfl, fun _ => rfl, fun _ _ => rfl,
    fun r x => by
      rw [if_neg]
      rintro ⟨h1, h2⟩
      simp at h1
      rw [h1, h] at h2
      simp at h2,
    by simp [dueIn, h], fun e he => by simp at he,
    fun r => ⟨0, ofNat_zero8 _, by simp [seqFrom]⟩⟩

theorem tickOver_spec (c : Ctrl) (order : List Address) (now : Int) (hn : order.Nodup) :
    TickSpec c order now (c.tickOver order now).1 (c.tickOver order now).2 := by
  induction order generalizing c with
  | nil => exact TickSpec.refl c now
  | cons a order ih =>
    rw [List.nodup_cons] at hn
    have hd : ∀ x ∈ order, x ∉ [a] := by
      intro x hx h
      simp at h
      exact hn.1 (h ▸ hx)
    unfold Ctrl.tickOver
    cases hr : c.output.get a with
    | none => exact (TickSpec.skip c now a hr).append (ih c hn.2) hd
    | some r => exact (tickAt_spec c a r now hr).append (ih _ hn.2) hd

end Verif.Artnet
