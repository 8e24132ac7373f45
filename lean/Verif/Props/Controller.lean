import Verif.Lemmas.CtrlInv
import Verif.Lemmas.Config
/-
Properties of the controller's node table and routing: C39–C45, C52, C55, C56, C72.
-/
namespace Verif.Props
open Spec Packet Code Artnet

/-! ### Example replies -/

def ipA : Arr 4 := ⟨[10, 0, 0, 1], rfl⟩
def ipB : Arr 4 := ⟨[10, 0, 0, 2], rfl⟩

theorem replyOf_outputs (ip : Arr 4) (u : UInt8) :
    (configFromArtPollReply (replyOf ip u)).outputs = [⟨0, u⟩] := by
  rw [configFromArtPollReply_eq]
  have hv : visited (replyOf ip u) 0 = [0] := by
    show (List.finRange 4).filter (fun j => decide (0 ≤ j.val ∧ j.val < 1)) = [0]
    decide
  have ho : outAt (replyOf ip u) 0 = [⟨⟨0, 0 ||| u⟩, 0x80, 0⟩] :=
    if_pos (show PortType.output 0x80 = true by decide)
  unfold NodeConfig.outputs
  simp only [hv, List.flatMap_cons, List.flatMap_nil, ho, UInt8.zero_or, List.append_nil, List.map_cons,
    List.map_nil]

theorem replyOf_inputs (ip : Arr 4) (u : UInt8) :
    (configFromArtPollReply (replyOf ip u)).inputs = [] := by
  rw [configFromArtPollReply_eq]
  have hv : visited (replyOf ip u) 0 = [0] := by
    show (List.finRange 4).filter (fun j => decide (0 ≤ j.val ∧ j.val < 1)) = [0]
    decide
  have ho : inAt (replyOf ip u) 0 = [] :=
    if_neg (show ¬ PortType.input 0x80 = true by decide)
  unfold NodeConfig.inputs
  simp only [hv, List.flatMap_cons, List.flatMap_nil, ho, List.append_nil, List.map_nil]

theorem config_ip (p : ArtPollReply) : (configFromArtPollReply p).ip = p.ipAddress.val := by
  rw [configFromArtPollReply_eq]

theorem config_type (p : ArtPollReply) : (configFromArtPollReply p).type = p.style := by
  rw [configFromArtPollReply_eq]

theorem replyOf_tracked (ip : Arr 4) (u : UInt8) : Tracked (replyOf ip u) :=
  Or.inl (config_type _)

/-! ### C39 -/

/-- C39: after every possible history no two entries of Nodes have the same IP address. -/
theorem C39_one_per_ip (m : Int) (os : List Op) (h : (Ctrl.init m).CanRun os) :
    (((Ctrl.init m).run os).1.nodes.map (ipOf ((Ctrl.init m).run os).1)).Nodup := by
  have hi := (inv_init m).run os h
  rw [List.Nodup, List.pairwise_map]
  refine List.Pairwise.imp_of_mem ?_ hi.nodup
  intro r s hr hs hne e
  exact hne (hi.ips r hr s hs e)

example : (Ctrl.init 40).CanRun [.reply (replyOf ipA 1) 0, .reply (replyOf ipB 1) 5, .reply (replyOf ipA 2) 7] :=
  ⟨trivial, trivial, trivial, trivial⟩

/-! ### C40 -/

/-- C40: every routed universe belongs to a node that is currently known and claims it. -/
theorem C40_routes_to_claimants (m : Int) (os : List Op) (h : (Ctrl.init m).CanRun os) (a : Address)
    (r : Ref) :
    (((Ctrl.init m).run os).1.output.get a = some r →
      r ∈ ((Ctrl.init m).run os).1.nodes ∧ a ∈ (((Ctrl.init m).run os).1.heap r).node.outputs) ∧
    (((Ctrl.init m).run os).1.input.get a = some r →
      r ∈ ((Ctrl.init m).run os).1.nodes ∧ a ∈ (((Ctrl.init m).run os).1.heap r).node.inputs) :=
  ⟨((inv_init m).run os h).out a r, ((inv_init m).run os h).inp a r⟩

/-- Everything that is sent is sent by a tick. -/
theorem sent_by_tick (c : Ctrl) (os : List Op) (e : Emission) (he : e ∈ (c.run os).2) :
    ∃ pre order now post, os = pre ++ .tick order now :: post ∧
      e ∈ ((c.run pre).1.step (.tick order now)).2 := by
  induction os generalizing c with
  | nil => simp [Ctrl.run] at he
  | cons o os ih =>
    rw [(run_cons c o os).2] at he
    rcases List.mem_append.mp he with he | he
    · cases o with
      | tick order now => exact ⟨[], order, now, os, rfl, he⟩
      | reply p now => simp [Ctrl.step] at he
      | gc clock => simp [Ctrl.step] at he
      | send d a => simp [Ctrl.step] at he
      | restart => simp [Ctrl.step] at he
    · obtain ⟨pre, order, now, post, h1, h2⟩ := ih _ he
      exact ⟨o :: pre, order, now, post, by rw [h1]; rfl, h2⟩

/-- C40: every datagram of every history is an ArtDMX datagram sent, at the moment of a tick, to port
6454 at the IP address of a node that was known at that moment and claims the universe in it. -/
theorem C40_dmx_goes_to_claimant (m : Int) (os : List Op) (h : (Ctrl.init m).CanRun os) (e : Emission)
    (he : e ∈ ((Ctrl.init m).run os).2) :
    ∃ pre order now post, os = pre ++ .tick order now :: post ∧
      e ∈ (((Ctrl.init m).run pre).1.step (.tick order now)).2 ∧ IsDMX e ∧
      e.ref ∈ ((Ctrl.init m).run pre).1.nodes ∧
      emAddress e ∈ (((Ctrl.init m).run pre).1.heap e.ref).node.outputs ∧
      e.address = ⟨ipOf ((Ctrl.init m).run pre).1 e.ref, 6454⟩ := by
  obtain ⟨pre, order, now, post, h1, h2⟩ := sent_by_tick _ os e he
  refine ⟨pre, order, now, post, h1, h2, ?_⟩
  rw [h1, canRun_append] at h
  have hi := (inv_init m).run pre h.1
  have t := tick_spec hi (now := now) h.2.1
  obtain ⟨g1, g2, g3, _⟩ := t.each e h2
  obtain ⟨g5, g6⟩ := hi.out _ _ g2
  exact ⟨g1, g5, g6, by rw [g3, hi.udp _ g5]; rfl⟩

/-- A node is discovered and its universe is transmitted at the next tick. -/
theorem discover_and_tick : ∃ e, e ∈ ((Ctrl.init 40).run
    [.reply (replyOf ipA 1) 0, .tick [⟨0, 1⟩] second]).2 := by
  have hk : known (Ctrl.init 40) (configFromArtPollReply (replyOf ipA 1)).ip = none := rfl
  have e1 : ((Ctrl.init 40).step (.reply (replyOf ipA 1) 0)).1 =
      addedNode (Ctrl.init 40) (configFromArtPollReply (replyOf ipA 1)) 0 := by
    show (Ctrl.init 40).pollReply _ _ = _
    rw [pollReply_eq, if_pos (replyOf_tracked ipA 1), updateNode_eq, hk]
  have ho : (addedNode (Ctrl.init 40) (configFromArtPollReply (replyOf ipA 1)) 0).output.get ⟨0, 1⟩ =
      some 0 := by
    show (setAll [] (configFromArtPollReply (replyOf ipA 1)).outputs 0).get ⟨0, 1⟩ = _
    rw [replyOf_outputs]; rfl
  rw [(run_cons _ _ _).2, e1, (run_cons _ _ _).2]
  have t := tickOver_spec (addedNode (Ctrl.init 40) (configFromArtPollReply (replyOf ipA 1)) 0)
    [⟨0, 1⟩] second (by simp)
  have hb : bufferAt ((addedNode (Ctrl.init 40) (configFromArtPollReply (replyOf ipA 1)) 0).heap 0) ⟨0, 1⟩ =
      DmxBuffer.zero := by
    show ((newBuffers (configFromArtPollReply (replyOf ipA 1)).outputs).get ⟨0, 1⟩).getD .zero = _
    rw [replyOf_outputs]; rfl
  have hd : dueIn (addedNode (Ctrl.init 40) (configFromArtPollReply (replyOf ipA 1)) 0) second ⟨0, 1⟩ =
      true := by
    unfold dueIn
    rw [ho]
    simp only [hb]
    exact decide_eq_true (Or.inr (by decide))
  have hm := t.addresses
  rw [List.filter_cons, hd] at hm
  simp only [if_true, List.filter_nil] at hm
  cases hes : ((addedNode (Ctrl.init 40) (configFromArtPollReply (replyOf ipA 1)) 0).tickOver
    [⟨0, 1⟩] second).2 with
  | nil => rw [hes] at hm; simp at hm
  | cons e es =>
    refine ⟨e, ?_⟩
    apply List.mem_append_right
    apply List.mem_append_left
    show e ∈ (Ctrl.tickOver _ _ _).2
    rw [hes]
    exact List.mem_cons_self

/-! ### C41 -/

theorem routed_step {c : Ctrl} (hi : Inv c) (o : Op) (ho : c.CanDo o) (hr : ¬ IsRestart o)
    (hc : CollisionFree c) (hc' : CollisionFree (c.step o).1)
    (h : ∀ r ∈ c.nodes, ∀ a ∈ (c.heap r).node.outputs, c.output.get a = some r) :
    ∀ r ∈ (c.step o).1.nodes, ∀ a ∈ ((c.step o).1.heap r).node.outputs,
      (c.step o).1.output.get a = some r := by
  cases o with
  | restart => exact absurd trivial hr
  | tick order now =>
    have t := tick_spec hi (now := now) ho
    intro r hr a ha
    rw [t.output]
    rw [t.nodes] at hr
    rw [t.node] at ha
    exact h r hr a ha
  | send d x =>
    obtain ⟨_, f2, f3, _, _, f6, _, _⟩ := sendDMX_frame c d x
    intro r hr a ha
    have hr : r ∈ (c.sendDMX d x).nodes := hr
    have ha : a ∈ ((c.sendDMX d x).heap r).node.outputs := ha
    show (c.sendDMX d x).output.get a = some r
    rw [f3]
    rw [f2] at hr
    rw [(f6 r).2.1] at ha
    exact h r hr a ha
  | gc clock =>
    obtain ⟨⟨h1, _, _, h4, _, _, _, h8, _⟩, _⟩ := gcNode_spec c clock hi.nodup
    intro r hr a ha
    have hr : r ∈ (c.gcNode clock).nodes := hr
    have ha : a ∈ ((c.gcNode clock).heap r).node.outputs := ha
    show (c.gcNode clock).output.get a = some r
    rw [h1] at ha
    rw [h8]
    · exact h r (h4.subset hr) a ha
    · intro s hs hs'
      exact hc r (h4.subset hr) s hs (fun e => hs' (e ▸ hr)) a ha
  | reply p now =>
    have hc' : CollisionFree (c.pollReply p now) := hc'
    show ∀ r ∈ (c.pollReply p now).nodes, ∀ a ∈ ((c.pollReply p now).heap r).node.outputs,
      (c.pollReply p now).output.get a = some r
    rw [pollReply_eq] at hc' ⊢
    by_cases ht : Tracked p
    · rw [if_pos ht] at hc' ⊢
      rcases updateNode_cases c (configFromArtPollReply p) now with ⟨s, hk, e⟩ | ⟨hk, e⟩
      · obtain ⟨hs, _⟩ := known_some hk
        rw [e] at hc' ⊢
        have hself : ((updatedAt c s (configFromArtPollReply p) now).heap s).node =
            configFromArtPollReply p := by simp [updatedAt]
        have hother : ∀ x, x ≠ s → (updatedAt c s (configFromArtPollReply p) now).heap x = c.heap x := by
          intro x hx; simp [updatedAt, hx]
        intro r hr a ha
        show (setAll (delAll c.output (c.heap s).node.outputs) (configFromArtPollReply p).outputs s).get a =
          some r
        rw [setAll_get]
        by_cases hrs : r = s
        · subst hrs
          rw [hself] at ha
          rw [if_pos ha]
        · have hn := hc' r hr s hs hrs a ha
          rw [hself] at hn
          rw [hother r hrs] at ha
          rw [if_neg hn, delAll_get, if_neg (hc r hr s hs hrs a ha)]
          exact h r hr a ha
      · rw [e] at hc' ⊢
        have hself : ((addedNode c (configFromArtPollReply p) now).heap c.next).node =
            configFromArtPollReply p := by simp [addedNode]
        have hother : ∀ x, x ≠ c.next → (addedNode c (configFromArtPollReply p) now).heap x = c.heap x := by
          intro x hx; simp [addedNode, hx]
        have hmem : ∀ x, x ∈ (addedNode c (configFromArtPollReply p) now).nodes ↔
            x ∈ c.nodes ∨ x = c.next := by intro x; simp [addedNode]
        intro r hr a ha
        show (setAll c.output (configFromArtPollReply p).outputs c.next).get a = some r
        rw [setAll_get]
        by_cases hrs : r = c.next
        · subst hrs
          rw [hself] at ha
          rw [if_pos ha]
        · have hn := hc' r hr c.next ((hmem _).mpr (Or.inr rfl)) hrs a ha
          rw [hself] at hn
          rw [hother r hrs] at ha
          rw [if_neg hn]
          rcases (hmem r).mp hr with hr' | hr'
          · exact h r hr' a ha
          · exact absurd hr' hrs
    · rw [if_neg ht] at hc' ⊢
      exact h

/-- C41: as long as no two known nodes ever claimed the same universe (and the controller was not
restarted), every claimed universe is routed to its claimant. -/
theorem C41_claims_are_routed (m : Int) (os : List Op) (h : (Ctrl.init m).CanRun os)
    (hr : ∀ o ∈ os, ¬ IsRestart o)
    (hc : ∀ pre post, os = pre ++ post → CollisionFree ((Ctrl.init m).run pre).1) :
    ∀ r ∈ ((Ctrl.init m).run os).1.nodes, ∀ a ∈ (((Ctrl.init m).run os).1.heap r).node.outputs,
      Routed ((Ctrl.init m).run os).1 a r := by
  have gen : ∀ (os : List Op) (c : Ctrl), Inv c → c.CanRun os → (∀ o ∈ os, ¬ IsRestart o) →
      (∀ pre post, os = pre ++ post → CollisionFree (c.run pre).1) →
      (∀ r ∈ c.nodes, ∀ a ∈ (c.heap r).node.outputs, c.output.get a = some r) →
      ∀ r ∈ (c.run os).1.nodes, ∀ a ∈ ((c.run os).1.heap r).node.outputs,
        (c.run os).1.output.get a = some r := by
    intro os
    induction os with
    | nil => intro c _ _ _ _ h; exact h
    | cons o os ih =>
      intro c hi hcan hr hc h
      refine ih (c.step o).1 (hi.step o hcan.1) hcan.2 (fun x hx => hr x (by simp [hx])) ?_ ?_
      · intro pre post e
        exact hc (o :: pre) post (by rw [e]; rfl)
      · exact routed_step hi o hcan.1 (hr o (by simp)) (hc [] (o :: os) rfl) (hc [o] os rfl) h
  exact gen os _ (inv_init m) h hr hc (by simp [Ctrl.init])

example : CollisionFree (Ctrl.init 40) := by simp [CollisionFree, Ctrl.init]

/-! ### C43 -/

/-- C43: one pass of gcNode. With a clock that does not run backwards it removes every node that was
stale when the pass started and keeps, in order, every node that is fresh at every clock reading of the
pass; every removed node was stale at some reading. Universes of removed nodes are no longer routed,
other universes are untouched, and no node object changes. -/
theorem C43_gc_exact (m : Int) (os : List Op) (h : (Ctrl.init m).CanRun os) (clock : Nat → Int)
    (hm : Monotone clock) :
    let c := ((Ctrl.init m).run os).1
    let c' := c.gcNode clock
    c'.heap = c.heap ∧ c'.nodes.Sublist c.nodes ∧
    (∀ r ∈ c.nodes, (c.heap r).lastSeen + 7000000000 < clock 0 → r ∉ c'.nodes) ∧
    (∀ r ∈ c.nodes, (∀ k, clock k ≤ (c.heap r).lastSeen + 7000000000) → r ∈ c'.nodes) ∧
    (∀ r ∈ c.nodes, r ∉ c'.nodes →
      (∃ k, (c.heap r).lastSeen + 7000000000 < clock k) ∧
      (∀ a ∈ (c.heap r).node.outputs, c'.output.get a = none) ∧
      (∀ a ∈ (c.heap r).node.inputs, c'.input.get a = none)) ∧
    (∀ a, (∀ r ∈ c.nodes, r ∉ c'.nodes → a ∉ (c.heap r).node.outputs) →
      c'.output.get a = c.output.get a) ∧
    (∀ a, (∀ r ∈ c.nodes, r ∉ c'.nodes → a ∉ (c.heap r).node.inputs) →
      c'.input.get a = c.input.get a) := by
  intro c c'
  have hi : Inv c := (inv_init m).run os h
  obtain ⟨⟨h1, _, _, h4, h5, h6, h7, h8, h9, _⟩, hfin⟩ := gcNode_spec c clock hi.nodup
  have hsa : staleAfter = 7000000000 := rfl
  refine ⟨h1, h4, ?_, ?_, ?_, h8, h9⟩
  · intro r _ hs hr
    obtain ⟨j, hj⟩ := hfin r hr
    have := hm 0 j (Nat.zero_le _)
    rw [hsa] at hj
    omega
  · intro r hr hk
    by_cases hx : r ∈ c'.nodes
    · exact hx
    · obtain ⟨j, hj⟩ := h5 r hr hx
      have := hk j
      rw [hsa] at hj
      omega
  · intro r hr hx
    exact ⟨h5 r hr hx, h6 r hr hx, h7 r hr hx⟩

example : Monotone (fun k => (k : Int) * 1000) := by
  intro i j h
  show (i : Int) * 1000 ≤ (j : Int) * 1000
  omega

/-! ### C44, C45 -/

theorem heardFrom_append (ip : Bytes) (t : Option Int) (os os' : List Op) :
    heardFrom ip t (os ++ os') = heardFrom ip (heardFrom ip t os) os' := by
  induction os generalizing t with
  | nil => rfl
  | cons o os ih => cases o <;> exact ih _

/-- What a tracked reply does to the entry of its IP address. -/
theorem reply_entry {c : Ctrl} (_hi : Inv c) (p : ArtPollReply) (now : Int) (ht : Tracked p) :
    ∃ r ∈ (c.pollReply p now).nodes,
      ((c.pollReply p now).heap r).node = configFromArtPollReply p ∧
      ((c.pollReply p now).heap r).lastSeen = now ∧
      (∀ a ∈ (configFromArtPollReply p).outputs, (c.pollReply p now).output.get a = some r) ∧
      (∀ a ∈ (configFromArtPollReply p).inputs, (c.pollReply p now).input.get a = some r) ∧
      (∀ x ∈ (c.pollReply p now).nodes, x ≠ r → x ∈ c.nodes ∧ (c.pollReply p now).heap x = c.heap x) ∧
      (∀ x ∈ c.nodes, x ∈ (c.pollReply p now).nodes) := by
  rw [pollReply_eq, if_pos ht]
  rcases updateNode_cases c (configFromArtPollReply p) now with ⟨s, hk, e⟩ | ⟨hk, e⟩
  · obtain ⟨hs, _⟩ := known_some hk
    rw [e]
    refine ⟨s, hs, by simp [updatedAt], by simp [updatedAt], ?_, ?_, ?_, fun x hx => hx⟩
    · intro a ha
      show (setAll _ _ _).get a = _
      rw [setAll_get, if_pos ha]
    · intro a ha
      show (setAll _ _ _).get a = _
      rw [setAll_get, if_pos ha]
    · intro x hx hne
      exact ⟨hx, by simp [updatedAt, hne]⟩
  · rw [e]
    refine ⟨c.next, by simp [addedNode], by simp [addedNode], by simp [addedNode], ?_, ?_, ?_,
      fun x hx => by simp [addedNode, hx]⟩
    · intro a ha
      show (setAll _ _ _).get a = _
      rw [setAll_get, if_pos ha]
    · intro a ha
      show (setAll _ _ _).get a = _
      rw [setAll_get, if_pos ha]
    · intro x hx hne
      refine ⟨?_, by simp [addedNode, hne]⟩
      simp only [addedNode, List.mem_append, List.mem_cons, List.not_mem_nil, or_false] at hx
      rcases hx with hx | hx
      · exact hx
      · exact absurd hx hne

/-- Operations other than a tracked reply from its IP address leave `LastSeen` and the IP address of
every node object alone, and add no node. -/
theorem step_entry {c : Ctrl} (hi : Inv c) (o : Op) (ho : c.CanDo o) (ip : Bytes)
    (hn : ¬ RepliesFrom ip o) :
    ∀ r ∈ (c.step o).1.nodes, ((c.step o).1.heap r).node.ip = ip →
      r ∈ c.nodes ∧ (c.heap r).node.ip = ip ∧ ((c.step o).1.heap r).lastSeen = (c.heap r).lastSeen := by
  cases o with
  | restart => exact fun r hr e => ⟨hr, e, rfl⟩
  | tick order now =>
    have t := tick_spec hi (now := now) ho
    intro r hr e
    rw [t.node] at e
    rw [t.nodes] at hr
    exact ⟨hr, e, t.lastSeen r⟩
  | send d x =>
    obtain ⟨_, f2, _, _, _, f6, _, _⟩ := sendDMX_frame c d x
    intro r hr e
    have hr : r ∈ (c.sendDMX d x).nodes := hr
    have e : ((c.sendDMX d x).heap r).node.ip = ip := e
    rw [f2] at hr
    rw [(f6 r).2.1] at e
    exact ⟨hr, e, (f6 r).1⟩
  | gc clock =>
    obtain ⟨⟨h1, _, _, h4, _⟩, _⟩ := gcNode_spec c clock hi.nodup
    intro r hr e
    have hr : r ∈ (c.gcNode clock).nodes := hr
    have e : ((c.gcNode clock).heap r).node.ip = ip := e
    show _ ∧ _ ∧ ((c.gcNode clock).heap r).lastSeen = _
    rw [h1] at e ⊢
    exact ⟨h4.subset hr, e, rfl⟩
  | reply p now =>
    by_cases ht : Tracked p
    · obtain ⟨s, hs, h1, _, _, _, h2, _⟩ := reply_entry hi p now ht
      intro r hr e
      have hrs : r ≠ s := by
        intro ers
        have e : ((c.pollReply p now).heap r).node.ip = ip := e
        rw [ers, h1, config_ip] at e
        exact hn ⟨ht, e⟩
      obtain ⟨g1, g2⟩ := h2 r hr hrs
      have e : ((c.pollReply p now).heap r).node.ip = ip := e
      show _ ∧ _ ∧ ((c.pollReply p now).heap r).lastSeen = _
      rw [g2] at e ⊢
      exact ⟨g1, e, rfl⟩
    · intro r hr e
      have e' : (c.step (.reply p now)).1 = c := by
        show c.pollReply p now = c
        rw [pollReply_eq, if_neg ht]
      rw [e'] at hr e ⊢
      exact ⟨hr, e, rfl⟩

/-- Unless it is a tracked reply from the IP address or a gc pass, an operation keeps the node. -/
theorem step_keeps {c : Ctrl} (hi : Inv c) (o : Op) (ho : c.CanDo o) (ip : Bytes)
    (hn : ¬ RepliesFrom ip o) (r : Ref) (hr : r ∈ c.nodes) (e : (c.heap r).node.ip = ip)
    (hg : ∀ clock, o = .gc clock → ∀ k, clock k ≤ (c.heap r).lastSeen + 7000000000) :
    r ∈ (c.step o).1.nodes ∧ ((c.step o).1.heap r).node.ip = ip ∧
      ((c.step o).1.heap r).lastSeen = (c.heap r).lastSeen := by
  cases o with
  | restart => exact ⟨hr, e, rfl⟩
  | tick order now =>
    have t := tick_spec hi (now := now) ho
    rw [t.nodes, t.node, t.lastSeen]
    exact ⟨hr, e, rfl⟩
  | send d x =>
    obtain ⟨_, f2, _, _, _, f6, _, _⟩ := sendDMX_frame c d x
    show r ∈ (c.sendDMX d x).nodes ∧ ((c.sendDMX d x).heap r).node.ip = ip ∧
      ((c.sendDMX d x).heap r).lastSeen = _
    rw [f2, (f6 r).2.1, (f6 r).1]
    exact ⟨hr, e, rfl⟩
  | gc clock =>
    obtain ⟨⟨h1, _, _, _, h5, _⟩, _⟩ := gcNode_spec c clock hi.nodup
    show r ∈ (c.gcNode clock).nodes ∧ ((c.gcNode clock).heap r).node.ip = ip ∧
      ((c.gcNode clock).heap r).lastSeen = _
    rw [h1]
    refine ⟨?_, e, rfl⟩
    by_cases hx : r ∈ (c.gcNode clock).nodes
    · exact hx
    · obtain ⟨j, hj⟩ := h5 r hr hx
      have := hg clock rfl j
      rw [show staleAfter = 7000000000 from rfl] at hj
      omega
  | reply p now =>
    by_cases ht : Tracked p
    · obtain ⟨s, hs, h1, _, _, _, h2, h3⟩ := reply_entry hi p now ht
      have hr' := h3 r hr
      have hi' : Inv (c.pollReply p now) := hi.pollReply p now
      have hrs : r ≠ s := by
        intro ers
        subst ers
        rw [pollReply_eq, if_pos ht] at h1
        rcases updateNode_cases c (configFromArtPollReply p) now with ⟨x, hk, e1⟩ | ⟨hk, e1⟩
        · rw [e1] at h1
          obtain ⟨hx, hxip⟩ := known_some hk
          by_cases hrx : r = x
          · subst hrx
            rw [config_ip] at hxip
            exact hn ⟨ht, by rw [← hxip]; exact e⟩
          · have : (c.heap r).node = configFromArtPollReply p := by
              simpa [updatedAt, hrx] using h1
            rw [this, config_ip] at e
            exact hn ⟨ht, e⟩
        · rw [e1] at h1
          have hne : r ≠ c.next := fun e' => absurd (hi.lt_next r hr) (e' ▸ Nat.lt_irrefl _)
          have : (c.heap r).node = configFromArtPollReply p := by
            simpa [addedNode, hne] using h1
          rw [this, config_ip] at e
          exact hn ⟨ht, e⟩
      obtain ⟨_, g2⟩ := h2 r hr' hrs
      show r ∈ (c.pollReply p now).nodes ∧ ((c.pollReply p now).heap r).node.ip = ip ∧
        ((c.pollReply p now).heap r).lastSeen = _
      rw [g2]
      exact ⟨hr', e, rfl⟩
    · have e' : (c.step (.reply p now)).1 = c := by
        show c.pollReply p now = c
        rw [pollReply_eq, if_neg ht]
      rw [e']
      exact ⟨hr, e, rfl⟩

theorem heardFrom_cons_ne (ip : Bytes) (t : Option Int) (o : Op) (os : List Op)
    (h : ¬ RepliesFrom ip o) : heardFrom ip t (o :: os) = heardFrom ip t os := by
  cases o with
  | reply p now =>
    have h : ¬ (Tracked p ∧ p.ipAddress.val = ip) := h
    rw [heardFrom, if_neg h]
  | _ => rfl

/-- C44: a node is known, with the time of its last tracked reply, as long as no gc pass reads a clock
more than 7 s past the last tracked reply before that pass. -/
theorem C44_responsive_node_stays (m : Int) (os : List Op) (h : (Ctrl.init m).CanRun os) (ip : Bytes)
    (hg : ∀ pre clock post, os = pre ++ .gc clock :: post → ∀ t, heardAt ip pre = some t →
      ∀ k, clock k ≤ t + 7000000000)
    (t : Int) (ht : heardAt ip os = some t) :
    ∃ r ∈ ((Ctrl.init m).run os).1.nodes, ipOf ((Ctrl.init m).run os).1 r = ip ∧
      (((Ctrl.init m).run os).1.heap r).lastSeen = t := by
  have gen : ∀ (os : List Op) (c : Ctrl) (t0 : Option Int), Inv c → c.CanRun os →
      (∀ pre clock post, os = pre ++ .gc clock :: post → ∀ t, heardFrom ip t0 pre = some t →
        ∀ k, clock k ≤ t + 7000000000) →
      (∀ t, t0 = some t → ∃ r ∈ c.nodes, (c.heap r).node.ip = ip ∧ (c.heap r).lastSeen = t) →
      ∀ t, heardFrom ip t0 os = some t →
      ∃ r ∈ (c.run os).1.nodes, ((c.run os).1.heap r).node.ip = ip ∧
        ((c.run os).1.heap r).lastSeen = t := by
    intro os
    induction os with
    | nil => intro c t0 _ _ _ h; exact h
    | cons o os ih =>
      intro c t0 hi hcan hg h t ht
      by_cases hrep : RepliesFrom ip o
      · cases o with
        | reply p now =>
          have hrep : Tracked p ∧ p.ipAddress.val = ip := hrep
          have e : ∀ os, heardFrom ip t0 (.reply p now :: os) = heardFrom ip (some now) os := by
            intro os; rw [heardFrom, if_pos hrep]
          rw [e] at ht
          refine ih _ (some now) (hi.step _ hcan.1) hcan.2 ?_ ?_ t ht
          · intro pre clock post epre t' ht'
            exact hg (.reply p now :: pre) clock post (by rw [epre]; rfl) t' (by rw [e]; exact ht')
          · intro t' ht'
            obtain ⟨s, hs, h1, h2, _⟩ := reply_entry hi p now hrep.1
            refine ⟨s, hs, ?_, ?_⟩
            · show ((c.pollReply p now).heap s).node.ip = ip
              rw [h1, config_ip]; exact hrep.2
            · show ((c.pollReply p now).heap s).lastSeen = t'
              rw [h2]; injection ht'
        | _ => exact absurd hrep id
      · have e := heardFrom_cons_ne ip t0 o
        rw [e os hrep] at ht
        refine ih _ t0 (hi.step _ hcan.1) hcan.2 ?_ ?_ t ht
        · intro pre clock post epre t' ht'
          exact hg (o :: pre) clock post (by rw [epre]; rfl) t' (by rw [e pre hrep]; exact ht')
        · intro t' ht'
          obtain ⟨r, hr, h1, h2⟩ := h t' ht'
          obtain ⟨g1, g2, g3⟩ := step_keeps hi o hcan.1 ip hrep r hr h1 (by
            intro clock eo k
            rw [h2]
            exact hg [] clock os (by rw [eo]; rfl) t' ht' k)
          exact ⟨r, g1, g2, by rw [g3, h2]⟩
  exact gen os _ none (inv_init m) h hg (by simp) t ht

example : heardAt [10, 0, 0, 1] [.reply (replyOf ipA 1) 0, .gc fun k => 6 * second + k,
    .reply (replyOf ipB 1) 2, .reply (replyOf ipA 2) 8, .gc fun _ => 5] = some 8 := by
  unfold heardAt
  rw [heardFrom, if_pos ⟨replyOf_tracked _ _, rfl⟩, heardFrom, heardFrom, if_neg, heardFrom,
    if_pos ⟨replyOf_tracked _ _, rfl⟩]
  · rfl
  · rintro ⟨_, h⟩
    exact absurd h (by decide)
  all_goals simp

/-- Every known node was heard, last at its `LastSeen`. -/
theorem lastSeen_heard (m : Int) (os : List Op) (h : (Ctrl.init m).CanRun os) :
    ∀ r ∈ ((Ctrl.init m).run os).1.nodes,
      heardAt (ipOf ((Ctrl.init m).run os).1 r) os = some (((Ctrl.init m).run os).1.heap r).lastSeen := by
  have gen : ∀ (os : List Op) (c : Ctrl) (T : Bytes → Option Int), Inv c → c.CanRun os →
      (∀ r ∈ c.nodes, T (c.heap r).node.ip = some (c.heap r).lastSeen) →
      ∀ r ∈ (c.run os).1.nodes, heardFrom ((c.run os).1.heap r).node.ip
        (T ((c.run os).1.heap r).node.ip) os = some ((c.run os).1.heap r).lastSeen := by
    intro os
    induction os with
    | nil => intro c T _ _ h; exact h
    | cons o os ih =>
      intro c T hi hcan h r hr
      have key := ih (c.step o).1 (fun ip => heardFrom ip (T ip) [o]) (hi.step o hcan.1) hcan.2 ?_ r hr
      · have e := heardFrom_append ((c.run (o :: os)).1.heap r).node.ip
          (T ((c.run (o :: os)).1.heap r).node.ip) [o] os
        rw [List.singleton_append] at e
        rw [e]
        exact key
      · intro x hx
        show heardFrom _ (T _) [o] = _
        by_cases hrep : RepliesFrom ((c.step o).1.heap x).node.ip o
        · cases o with
          | reply p now =>
            have hrep : Tracked p ∧ p.ipAddress.val = ((c.pollReply p now).heap x).node.ip := hrep
            obtain ⟨s, hs, h1, h2, _⟩ := reply_entry hi p now hrep.1
            have hi' : Inv (c.pollReply p now) := hi.pollReply p now
            have exs : x = s := hi'.ips x hx s hs (by rw [h1, config_ip, hrep.2])
            show heardFrom ((c.pollReply p now).heap x).node.ip (T ((c.pollReply p now).heap x).node.ip)
              [.reply p now] = some ((c.pollReply p now).heap x).lastSeen
            rw [heardFrom, if_pos hrep, exs, h2]
            rfl
          | _ => exact absurd hrep id
        · rw [heardFrom_cons_ne _ _ _ _ hrep]
          obtain ⟨g1, g2, g3⟩ := step_entry hi o hcan.1 _ hrep x hx rfl
          rw [g3, ← h x g1, g2]
          rfl
  exact gen os _ (fun _ => none) (inv_init m) h (by simp [Ctrl.init])

/-- C45: a gc pass that starts more than 7 s after the last tracked reply from `ip` forgets that node,
and until the next tracked reply from `ip` it stays forgotten and nothing is sent to that address. -/
theorem C45_silent_node_forgotten (m : Int) (os : List Op) (h : (Ctrl.init m).CanRun os) (ip : Bytes)
    (clock : Nat → Int) (hm : Monotone clock)
    (ht : ∀ t, heardAt ip os = some t → t + 7000000000 < clock 0)
    (os' : List Op) (h' : (((Ctrl.init m).run os).1.gcNode clock).CanRun os')
    (hn : ∀ o ∈ os', ¬ RepliesFrom ip o) :
    let c := ((((Ctrl.init m).run os).1.gcNode clock).run os')
    (∀ r ∈ c.1.nodes, ipOf c.1 r ≠ ip) ∧ ∀ e ∈ c.2, e.address.ip ≠ ip := by
  have hi := (inv_init m).run os h
  have h0 : ∀ r ∈ (((Ctrl.init m).run os).1.gcNode clock).nodes,
      ((((Ctrl.init m).run os).1.gcNode clock).heap r).node.ip ≠ ip := by
    obtain ⟨⟨h1, _, _, h4, _⟩, hfin⟩ := gcNode_spec ((Ctrl.init m).run os).1 clock hi.nodup
    intro r hr e
    rw [h1] at e
    have := lastSeen_heard m os h r (h4.subset hr)
    have e' : ipOf ((Ctrl.init m).run os).1 r = ip := e
    rw [e'] at this
    have h2 := ht _ this
    obtain ⟨j, hj⟩ := hfin r hr
    have := hm 0 j (Nat.zero_le _)
    rw [show staleAfter = 7000000000 from rfl] at hj
    omega
  have gen : ∀ (os' : List Op) (c : Ctrl), Inv c → c.CanRun os' → (∀ o ∈ os', ¬ RepliesFrom ip o) →
      (∀ r ∈ c.nodes, (c.heap r).node.ip ≠ ip) →
      (∀ r ∈ (c.run os').1.nodes, ((c.run os').1.heap r).node.ip ≠ ip) ∧
      ∀ e ∈ (c.run os').2, e.address.ip ≠ ip := by
    intro os'
    induction os' with
    | nil =>
      intro c _ _ _ h
      exact ⟨h, fun e he => by simp [Ctrl.run] at he⟩
    | cons o os' ih =>
      intro c hi hcan hn h
      have hno := hn o (by simp)
      obtain ⟨g1, g2⟩ := ih (c.step o).1 (hi.step o hcan.1) hcan.2 (fun x hx => hn x (by simp [hx])) (by
        intro r hr e
        obtain ⟨k1, k2, _⟩ := step_entry hi o hcan.1 ip hno r hr e
        exact h r k1 k2)
      refine ⟨g1, ?_⟩
      intro e he
      rw [(run_cons c o os').2] at he
      rcases List.mem_append.mp he with he | he
      · cases o with
        | tick order now =>
          have t := tick_spec hi (now := now) hcan.1
          obtain ⟨_, k2, k3, _⟩ := t.each e he
          obtain ⟨k5, _⟩ := hi.out _ _ k2
          rw [k3, hi.udp _ k5]
          exact h _ k5
        | _ => simp [Ctrl.step] at he
      · exact g2 e he
  exact gen os' _ (hi.gc clock) h' hn h0

example : ∀ t, heardAt [10, 0, 0, 1] [.reply (replyOf ipA 1) 0] = some t →
    t + 7000000000 < (fun k => 8 * second + k : Nat → Int) 0 := by
  intro t h
  unfold heardAt at h
  rw [heardFrom, if_pos ⟨replyOf_tracked _ _, rfl⟩] at h
  injection h with h
  subst h
  decide

/-! ### C42 -/

/-- C42 as stated: a reply or a gc pass leaves every universe that a live node claims routed, if it
was routed before. -/
def C42_statement : Prop := ∀ (m : Int) (os : List Op) (o : Op), (Ctrl.init m).CanRun (os ++ [o]) →
  ¬ IsRestart o → ∀ s a,
    s ∈ ((Ctrl.init m).run (os ++ [o])).1.nodes →
    a ∈ (((Ctrl.init m).run (os ++ [o])).1.heap s).node.outputs →
    ((Ctrl.init m).run os).1.output.get a ≠ none →
    ((Ctrl.init m).run (os ++ [o])).1.output.get a ≠ none

/-- Two nodes claim universe 0:0.1. The first one expires at second 8 and takes the universe of the
second one, heard at second 6, with it. -/
def collide : List Op := [.reply (replyOf ipA 1) 0, .reply (replyOf ipB 1) (6 * second)]

theorem collide_state : ∃ c, ((Ctrl.init 40).run collide).1 = c ∧ c.nodes = [0, 1] ∧
    (c.heap 0).node = configFromArtPollReply (replyOf ipA 1) ∧ (c.heap 0).lastSeen = 0 ∧
    (c.heap 1).node = configFromArtPollReply (replyOf ipB 1) ∧ (c.heap 1).lastSeen = 6 * second ∧
    c.output.get ⟨0, 1⟩ = some 1 := by
  have e1 : (Ctrl.init 40).pollReply (replyOf ipA 1) 0 =
      addedNode (Ctrl.init 40) (configFromArtPollReply (replyOf ipA 1)) 0 := by
    rw [pollReply_eq, if_pos (replyOf_tracked ipA 1), updateNode_eq]
    rfl
  have hk : known (addedNode (Ctrl.init 40) (configFromArtPollReply (replyOf ipA 1)) 0)
      (configFromArtPollReply (replyOf ipB 1)).ip = none := by
    unfold known
    rw [List.find?_eq_none]
    intro r hr
    have hr : r ∈ [0] := hr
    simp only [List.mem_cons, List.not_mem_nil, or_false] at hr
    subst hr
    show ¬ (((configFromArtPollReply (replyOf ipB 1)).ip ==
      (configFromArtPollReply (replyOf ipA 1)).ip) = true)
    rw [config_ip, config_ip]
    decide
  have e2 : (addedNode (Ctrl.init 40) (configFromArtPollReply (replyOf ipA 1)) 0).pollReply
      (replyOf ipB 1) (6 * second) =
      addedNode (addedNode (Ctrl.init 40) (configFromArtPollReply (replyOf ipA 1)) 0)
        (configFromArtPollReply (replyOf ipB 1)) (6 * second) := by
    rw [pollReply_eq, if_pos (replyOf_tracked ipB 1), updateNode_eq, hk]
  refine ⟨_, rfl, ?_⟩
  show (((Ctrl.init 40).pollReply (replyOf ipA 1) 0).pollReply (replyOf ipB 1) (6 * second)).nodes = _ ∧ _
  have e3 : ((Ctrl.init 40).run collide).1 =
      ((Ctrl.init 40).pollReply (replyOf ipA 1) 0).pollReply (replyOf ipB 1) (6 * second) := rfl
  rw [e3, e1, e2]
  refine ⟨rfl, rfl, rfl, rfl, rfl, ?_⟩
  show (setAll _ (configFromArtPollReply (replyOf ipB 1)).outputs 1).get ⟨0, 1⟩ = _
  rw [setAll_get, replyOf_outputs]
  rfl

theorem C42_false : ¬ C42_statement := by
  intro h
  have hcan : (Ctrl.init 40).CanRun (collide ++ [.gc fun _ => 8 * second]) :=
    ⟨trivial, trivial, trivial, trivial⟩
  obtain ⟨c, hc, h1, h2, h3, h4, h5, h6⟩ := collide_state
  have hrun : ((Ctrl.init 40).run (collide ++ [.gc fun _ => 8 * second])).1 =
      c.gcNode fun _ => 8 * second := by
    rw [(run_append _ _ _).1, hc]; rfl
  have hi : Inv c := by
    rw [← hc]; exact (inv_init 40).run collide ⟨trivial, trivial, trivial⟩
  obtain ⟨⟨g1, _, _, _, g5, g6, _⟩, gfin⟩ := gcNode_spec c (fun _ => 8 * second) hi.nodup
  have hB : 1 ∈ (c.gcNode fun _ => 8 * second).nodes := by
    by_cases hx : 1 ∈ (c.gcNode fun _ => 8 * second).nodes
    · exact hx
    · obtain ⟨j, hj⟩ := g5 1 (by rw [h1]; simp) hx
      rw [h5] at hj
      exact absurd (show 6 * second + staleAfter < 8 * second from hj) (by decide)
  have hA : 0 ∉ (c.gcNode fun _ => 8 * second).nodes := by
    intro hx
    obtain ⟨j, hj⟩ := gfin 0 hx
    rw [h3] at hj
    exact hj (show 0 + staleAfter < 8 * second by decide)
  have hgone := g6 0 (by rw [h1]; simp) hA ⟨0, 1⟩ (by rw [h2, replyOf_outputs]; simp)
  have := h 40 collide (.gc fun _ => 8 * second) hcan id 1 ⟨0, 1⟩
  rw [hrun, hc] at this
  exact this hB (by rw [g1, h4, replyOf_outputs]; simp) (by rw [h6]; simp) hgone

/-- C42, the part that holds: a universe stays routed as before if it is listed neither by the node
that is updated (before and after) nor by a node that is removed. Missing: universes that such a node
lists, too, for which `C42_removed_takes_all` shows the opposite. -/
theorem C42_partial (m : Int) (os : List Op) (h : (Ctrl.init m).CanRun os) (a : Address) :
    let c := ((Ctrl.init m).run os).1
    (∀ p now, (∀ r ∈ c.nodes, ipOf c r = p.ipAddress.val → a ∉ (c.heap r).node.outputs) →
      a ∉ (configFromArtPollReply p).outputs → (c.pollReply p now).output.get a = c.output.get a) ∧
    (∀ clock, (∀ r ∈ c.nodes, r ∉ (c.gcNode clock).nodes → a ∉ (c.heap r).node.outputs) →
      (c.gcNode clock).output.get a = c.output.get a) := by
  intro c
  have hi : Inv c := (inv_init m).run os h
  constructor
  · intro p now h1 h2
    rw [pollReply_eq]
    split
    · rcases updateNode_cases c (configFromArtPollReply p) now with ⟨s, hk, e⟩ | ⟨hk, e⟩
      · obtain ⟨hs, hip⟩ := known_some hk
        rw [e]
        show (setAll (delAll _ _) _ _).get a = _
        rw [setAll_get, if_neg h2, delAll_get, if_neg (h1 s hs (by rw [← config_ip]; exact hip))]
      · rw [e]
        show (setAll _ _ _).get a = _
        rw [setAll_get, if_neg h2]
    · rfl
  · intro clock h1
    exact (gcNode_spec c clock hi.nodup).1.2.2.2.2.2.2.2.1 a h1

/-- What happens instead: after a gc pass no universe listed by a removed node is routed, even if a
live node claims it, too. -/
theorem C42_removed_takes_all (m : Int) (os : List Op) (h : (Ctrl.init m).CanRun os) (clock : Nat → Int)
    (r : Ref) (a : Address) :
    let c := ((Ctrl.init m).run os).1
    r ∈ c.nodes → r ∉ (c.gcNode clock).nodes → a ∈ (c.heap r).node.outputs →
      (c.gcNode clock).output.get a = none := by
  intro c h1 h2 h3
  exact (gcNode_spec c clock ((inv_init m).run os h).nodup).1.2.2.2.2.2.1 r h1 h2 a h3

/-- C42, exactly: the operations that take away the routing of a routed universe. A reply does if it is from a
known node that listed the universe and lists it no more; a gc pass does if it removes a node that lists it. -/
theorem C42_exact (m : Int) (os : List Op) (h : (Ctrl.init m).CanRun os) (a : Address) :
    let c := ((Ctrl.init m).run os).1
    c.output.get a ≠ none →
    (∀ p now, (c.pollReply p now).output.get a = none ↔ Tracked p ∧ a ∉ (configFromArtPollReply p).outputs ∧
      ∃ r ∈ c.nodes, ipOf c r = p.ipAddress.val ∧ a ∈ (c.heap r).node.outputs) ∧
    (∀ clock, (c.gcNode clock).output.get a = none ↔
      ∃ r ∈ c.nodes, r ∉ (c.gcNode clock).nodes ∧ a ∈ (c.heap r).node.outputs) := by
  intro c ha
  have hi : Inv c := (inv_init m).run os h
  constructor
  · intro p now
    rw [pollReply_eq]
    by_cases ht : Tracked p
    case neg =>
      rw [if_neg ht]
      exact ⟨fun h => absurd h ha, fun h => absurd h.1 ht⟩
    rw [if_pos ht]
    by_cases h2 : a ∈ (configFromArtPollReply p).outputs
    · refine ⟨fun h => ?_, fun h => absurd h2 h.2.1⟩
      rcases updateNode_cases c (configFromArtPollReply p) now with ⟨s, _, e⟩ | ⟨_, e⟩
      · rw [e] at h
        have h : (setAll (delAll _ _) _ _).get a = none := h
        rw [setAll_get, if_pos h2] at h
        cases h
      · rw [e] at h
        have h : (setAll _ _ _).get a = none := h
        rw [setAll_get, if_pos h2] at h
        cases h
    · rcases updateNode_cases c (configFromArtPollReply p) now with ⟨s, hk, e⟩ | ⟨hk, e⟩
      · obtain ⟨hs, hip⟩ := known_some hk
        rw [config_ip] at hip
        rw [e]
        show (setAll (delAll _ _) _ _).get a = none ↔ _
        rw [setAll_get, if_neg h2, delAll_get]
        split
        · rename_i h3
          exact ⟨fun _ => ⟨ht, h2, s, hs, hip, h3⟩, fun _ => rfl⟩
        · rename_i h3
          refine ⟨fun h => absurd h ha, fun ⟨_, _, r, hr, hrip, hra⟩ => ?_⟩
          have : r = s := hi.ips r hr s hs (hrip.trans hip.symm)
          exact absurd (this ▸ hra) h3
      · rw [e]
        show (setAll _ _ _).get a = none ↔ _
        rw [setAll_get, if_neg h2]
        refine ⟨fun h => absurd h ha, fun ⟨_, _, r, hr, hrip, _⟩ => ?_⟩
        exact absurd (hrip.trans (config_ip p).symm) (known_none hk r hr)
  · intro clock
    obtain ⟨⟨_, _, _, _, _, g6, _, g8, _⟩, _⟩ := gcNode_spec c clock hi.nodup
    refine ⟨fun hn => ?_, fun ⟨r, h1, h2, h3⟩ => g6 r h1 h2 a h3⟩
    apply Classical.byContradiction
    intro hx
    have := g8 a fun r h1 h2 h3 => hx ⟨r, h1, h2, h3⟩
    rw [hn] at this
    exact ha this.symm

example : ∃ c : Ctrl, ((Ctrl.init 40).run collide).1 = c ∧ c.output.get ⟨0, 1⟩ ≠ none :=
  (collide_state).imp fun _ h => ⟨h.1, by rw [h.2.2.2.2.2.2]; simp⟩

/-! ### C52 -/

/-- C52: SendDMXToAddress on an unrouted universe changes nothing; on a routed one it changes nothing
but the data and the pending flag of that universe's buffer at that node. -/
theorem C52_send_is_local (c : Ctrl) (d : Arr 512) (a : Address) :
    (c.output.get a = none → c.sendDMX d a = c) ∧
    (c.sendDMX d a).nodes = c.nodes ∧ (c.sendDMX d a).output = c.output ∧
    (c.sendDMX d a).input = c.input ∧
    (∀ r, c.output.get a ≠ some r → (c.sendDMX d a).heap r = c.heap r) ∧
    (∀ r, ((c.sendDMX d a).heap r).lastSeen = (c.heap r).lastSeen ∧
      ((c.sendDMX d a).heap r).node = (c.heap r).node ∧
      ((c.sendDMX d a).heap r).udpAddress = (c.heap r).udpAddress ∧
      ((c.sendDMX d a).heap r).sequence = (c.heap r).sequence) ∧
    (∀ r x, x ≠ a → ((c.sendDMX d a).heap r).dmxBuffer.get x = (c.heap r).dmxBuffer.get x) ∧
    (∀ r, (bufferAt ((c.sendDMX d a).heap r) a).lastUpdate = (bufferAt (c.heap r) a).lastUpdate) := by
  obtain ⟨_, f2, f3, f4, _, f6, f7, f8⟩ := sendDMX_frame c d a
  refine ⟨?_, f2, f3, f4, f7, f6, ?_, ?_⟩
  · intro h
    simp only [Ctrl.sendDMX, h]
  · intro r x hx
    rw [f8, if_neg fun h => hx h.2]
  · intro r
    unfold bufferAt
    rw [f8]
    split
    · cases (c.heap r).dmxBuffer.get a <;> rfl
    · rfl

example : ∃ c : Ctrl, c.output.get ⟨0, 1⟩ = some 1 :=
  (collide_state).imp fun _ h => h.2.2.2.2.2.2

/-! ### C55 -/

/-- C55: a poll reply changes the controller's tables only if its style is StNode, or StController
with at least one port flagged as output among its advertised ports; and then the sender is known. -/
theorem C55_tracked_replies (m : Int) (os : List Op) (h : (Ctrl.init m).CanRun os) (p : ArtPollReply)
    (now : Int) :
    let c := ((Ctrl.init m).run os).1
    (¬ (p.style = 0 ∨ (p.style = 1 ∧ (configFromArtPollReply p).outputPorts ≠ [])) →
      c.pollReply p now = c) ∧
    ((p.style = 0 ∨ (p.style = 1 ∧ (configFromArtPollReply p).outputPorts ≠ [])) →
      ∃ r ∈ (c.pollReply p now).nodes,
        ((c.pollReply p now).heap r).node = configFromArtPollReply p ∧
        ((c.pollReply p now).heap r).lastSeen = now) := by
  intro c
  have e : (p.style = 0 ∨ (p.style = 1 ∧ (configFromArtPollReply p).outputPorts ≠ [])) ↔ Tracked p := by
    unfold Tracked
    rw [config_type]
  rw [e]
  constructor
  · intro ht
    rw [pollReply_eq, if_neg ht]
  · intro ht
    obtain ⟨r, h1, h2, h3, _⟩ := reply_entry ((inv_init m).run os h) p now ht
    exact ⟨r, h1, h2, h3⟩

example : ¬ Tracked { replyOf ipA 1 with style := 5 } := by
  rintro (h | ⟨h, _⟩) <;> rw [config_type] at h <;> exact absurd h (by decide)

/-! ### C56 -/

/-- C56 as stated. -/
def C56_statement : Prop := ∀ n : Int, ∃ d, tickerPeriod n = .ok d

theorem C56_false : ¬ C56_statement := by
  intro h
  obtain ⟨d, hd⟩ := h 0
  simp [tickerPeriod] at hd

/-- C56, the part that holds: the update loop starts exactly for rates from 1 to 10⁹; the period is
the number of nanoseconds in a second divided by the rate, rounded down. Every other rate panics. -/
theorem C56_partial (n : Int) :
    ((∃ d, tickerPeriod n = .ok d) ↔ 1 ≤ n ∧ n ≤ 1000000000) ∧
    (1 ≤ n ∧ n ≤ 1000000000 → tickerPeriod n = .ok (1000000000 / n)) := by
  have key : 1 ≤ n ∧ n ≤ 1000000000 → tickerPeriod n = .ok (1000000000 / n) := by
    rintro ⟨h1, h2⟩
    unfold tickerPeriod second
    rw [if_neg (by omega), Int.tdiv_eq_ediv_of_nonneg (by decide)]
    have : 1 ≤ 1000000000 / n := by
      rw [Int.le_ediv_iff_mul_le (by omega)]
      omega
    simp only
    rw [if_neg (by omega)]
  refine ⟨⟨?_, fun h => ⟨_, key h⟩⟩, key⟩
  rintro ⟨d, hd⟩
  unfold tickerPeriod second at hd
  by_cases h0 : n = 0
  · simp [h0] at hd
  · rw [if_neg h0] at hd
    rw [Int.tdiv_eq_ediv_of_nonneg (by decide)] at hd
    simp only at hd
    split at hd
    · simp at hd
    · rename_i hpos
      by_cases hn : n < 0
      · have := Int.ediv_nonpos_of_nonneg_of_nonpos (a := 1000000000) (b := n) (by decide) (by omega)
        omega
      · refine ⟨by omega, ?_⟩
        by_cases hbig : n ≤ 1000000000
        · exact hbig
        · have := Int.ediv_eq_zero_of_lt (a := 1000000000) (b := n) (by decide) (by omega)
          omega

example : tickerPeriod 40 = .ok 25000000 ∧ tickerPeriod 2000000000 = .error .nonPositiveTicker := by
  constructor <;> rfl

/-! ### C72 -/

/-- C72 as stated: after a restart every universe of a listed node is routed to it. -/
def C72_statement : Prop := ∀ (m : Int) (os : List Op), (Ctrl.init m).CanRun (os ++ [.restart]) →
  ∀ r ∈ ((Ctrl.init m).run (os ++ [.restart])).1.nodes,
    ∀ a ∈ (((Ctrl.init m).run (os ++ [.restart])).1.heap r).node.outputs,
      ∃ s, Routed ((Ctrl.init m).run (os ++ [.restart])).1 a s

/-- After a restart nothing is routed, whatever was known. -/
theorem C72_nothing_routed (c : Ctrl) (a : Address) :
    (c.step .restart).1.nodes = c.nodes ∧ (c.step .restart).1.output.get a = none ∧
    (c.step .restart).1.input.get a = none := ⟨rfl, rfl, rfl⟩

theorem C72_false : ¬ C72_statement := by
  intro h
  obtain ⟨c, hc, h1, h2, _⟩ := collide_state
  have hrun : ((Ctrl.init 40).run (collide ++ [.restart])).1 = c.restart := by
    rw [(run_append _ _ _).1, hc]; rfl
  have := h 40 collide ⟨trivial, trivial, trivial, trivial⟩ 0
  rw [hrun] at this
  obtain ⟨s, hs⟩ := this (by show 0 ∈ c.nodes; rw [h1]; simp) ⟨0, 1⟩
    (by show (⟨0, 1⟩ : Address) ∈ (c.heap 0).node.outputs; rw [h2, replyOf_outputs]; simp)
  exact absurd hs (by simp [Routed, Ctrl.restart, GoMap.get])

/-- C72, the part that holds: the next tracked reply of a node, in every state, routes all its
universes to it. Missing: the time between the restart and that reply. -/
theorem C72_partial (m : Int) (os : List Op) (h : (Ctrl.init m).CanRun os) (p : ArtPollReply)
    (now : Int) (ht : Tracked p) :
    let c := (((Ctrl.init m).run os).1.pollReply p now)
    ∃ r ∈ c.nodes, ipOf c r = p.ipAddress.val ∧ (c.heap r).node = configFromArtPollReply p ∧
      (∀ a ∈ (configFromArtPollReply p).outputs, Routed c a r) ∧
      (∀ a ∈ (configFromArtPollReply p).inputs, c.input.get a = some r) := by
  intro c
  obtain ⟨r, h1, h2, _, h4, h5, _⟩ := reply_entry ((inv_init m).run os h) p now ht
  exact ⟨r, h1, by rw [ipOf, h2, config_ip], h2, h4, h5⟩

example : Tracked (replyOf ipA 1) ∧ (configFromArtPollReply (replyOf ipA 1)).outputs = [⟨0, 1⟩] :=
  ⟨replyOf_tracked _ _, replyOf_outputs _ _⟩

/-- What happens instead: after a restart a universe is not routed until the reply of a node that lists it. -/
theorem C72_until (m : Int) (os os' : List Op) (a : Address)
    (h : (Ctrl.init m).CanRun (os ++ .restart :: os'))
    (hn : ∀ p now, .reply p now ∈ os' → Tracked p → a ∉ (configFromArtPollReply p).outputs) :
    ((Ctrl.init m).run (os ++ .restart :: os')).1.output.get a = none := by
  rw [canRun_append] at h
  rw [(run_append _ _ _).1, (run_cons _ _ _).1]
  have hi : Inv (((Ctrl.init m).run os).1.step .restart).1 := ((inv_init m).run os h.1).step _ h.2.1
  have h0 : (((Ctrl.init m).run os).1.step .restart).1.output.get a = none := rfl
  have hc := h.2.2
  generalize (((Ctrl.init m).run os).1.step .restart).1 = c at hi h0 hc
  clear h
  induction os' generalizing c with
  | nil => exact h0
  | cons o os' ih =>
    rw [(run_cons _ _ _).1]
    refine ih (c := (c.step o).1) (fun p now hp => hn p now (List.mem_cons_of_mem _ hp)) (hi.step o hc.1) ?_ hc.2
    · cases o with
      | tick order now => rw [(tick_spec hi (now := now) hc.1).output]; exact h0
      | send d x => exact (congrArg (GoMap.get · a) (sendDMX_frame c d x).2.2.1).trans h0
      | restart => rfl
      | gc clock =>
        show (c.gcNode clock).output.get a = none
        obtain ⟨⟨_, _, _, _, _, g6, _, g8, _⟩, _⟩ := gcNode_spec c clock hi.nodup
        by_cases hx : ∃ r ∈ c.nodes, r ∉ (c.gcNode clock).nodes ∧ a ∈ (c.heap r).node.outputs
        · obtain ⟨r, h1, h2, h3⟩ := hx
          exact g6 r h1 h2 a h3
        · rw [g8 a fun r h1 h2 h3 => hx ⟨r, h1, h2, h3⟩]
          exact h0
      | reply p now =>
        show (c.pollReply p now).output.get a = none
        rw [pollReply_eq]
        split
        · rename_i ht
          have h2 := hn p now (by simp) ht
          rcases updateNode_cases c (configFromArtPollReply p) now with ⟨s, hk, e⟩ | ⟨hk, e⟩
          · rw [e]
            show (setAll (delAll _ _) _ _).get a = _
            rw [setAll_get, if_neg h2, delAll_get]
            split
            · rfl
            · exact h0
          · rw [e]
            show (setAll _ _ _).get a = _
            rw [setAll_get, if_neg h2]
            exact h0
        · exact h0

example : (Ctrl.init 40).CanRun ([.reply (replyOf ipA 1) 0] ++ .restart :: [.reply (replyOf ipB 2) 1]) ∧
    (configFromArtPollReply (replyOf ipB 2)).outputs = [⟨0, 2⟩] :=
  ⟨⟨trivial, trivial, trivial, trivial⟩, replyOf_outputs _ _⟩

end Verif.Props
