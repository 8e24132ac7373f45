import Verif.Lemmas.Tick
/-
The invariant of the controller's tables over every history.
-/
namespace Verif.Artnet
open Spec Packet Code

structure Inv (c : Ctrl) : Prop where
  nodup : c.nodes.Nodup
  lt_next : ∀ r ∈ c.nodes, r < c.next
  ips : ∀ r ∈ c.nodes, ∀ s ∈ c.nodes, (c.heap r).node.ip = (c.heap s).node.ip → r = s
  out : ∀ a r, c.output.get a = some r → r ∈ c.nodes ∧ a ∈ (c.heap r).node.outputs
  inp : ∀ a r, c.input.get a = some r → r ∈ c.nodes ∧ a ∈ (c.heap r).node.inputs
  udp : ∀ r ∈ c.nodes, (c.heap r).udpAddress = ⟨(c.heap r).node.ip, 6454⟩
  fresh : ∀ r, c.next ≤ r → c.heap r = .none
  wfOut : c.output.WF
  wfIn : c.input.WF

theorem inv_init (m : Int) : Inv (Ctrl.init m) := by
  refine ⟨List.nodup_nil, ?_, ?_, ?_, ?_, ?_, fun _ _ => rfl, List.nodup_nil, List.nodup_nil⟩
  all_goals simp [Ctrl.init, GoMap.get]

theorem Inv.restart {c : Ctrl} (h : Inv c) : Inv c.restart := by
  refine ⟨h.nodup, h.lt_next, h.ips, ?_, ?_, h.udp, h.fresh, List.nodup_nil, List.nodup_nil⟩
  all_goals simp [Ctrl.restart, GoMap.get]

theorem Inv.gc {c : Ctrl} (h : Inv c) (clock : Nat → Int) : Inv (c.gcNode clock) := by
  obtain ⟨⟨h1, h2, h3, h4, h5, h6, h7, h8, h9, h10, h11⟩, _⟩ := gcNode_spec c clock h.nodup
  have keepOut : ∀ a r, (c.gcNode clock).output.get a = some r → c.output.get a = some r := by
    intro a r hr
    by_cases hx : ∀ s ∈ c.nodes, s ∉ (c.gcNode clock).nodes → a ∉ (c.heap s).node.outputs
    · rw [← h8 a hx]; exact hr
    · exfalso
      apply hx
      intro s hs hs' ha
      rw [h6 s hs hs' a ha] at hr
      simp at hr
  have keepIn : ∀ a r, (c.gcNode clock).input.get a = some r → c.input.get a = some r := by
    intro a r hr
    by_cases hx : ∀ s ∈ c.nodes, s ∉ (c.gcNode clock).nodes → a ∉ (c.heap s).node.inputs
    · rw [← h9 a hx]; exact hr
    · exfalso
      apply hx
      intro s hs hs' ha
      rw [h7 s hs hs' a ha] at hr
      simp at hr
  refine ⟨h4.nodup h.nodup, ?_, ?_, ?_, ?_, ?_, ?_, h10 h.wfOut, h11 h.wfIn⟩
  · intro r hr; rw [h2]; exact h.lt_next r (h4.subset hr)
  · intro r hr s hs e
    rw [h1] at e
    exact h.ips r (h4.subset hr) s (h4.subset hs) e
  · intro a r hr
    obtain ⟨g1, g2⟩ := h.out a r (keepOut a r hr)
    refine ⟨?_, by rw [h1]; exact g2⟩
    by_cases hm : r ∈ (c.gcNode clock).nodes
    · exact hm
    · rw [h6 r g1 hm a g2] at hr; simp at hr
  · intro a r hr
    obtain ⟨g1, g2⟩ := h.inp a r (keepIn a r hr)
    refine ⟨?_, by rw [h1]; exact g2⟩
    by_cases hm : r ∈ (c.gcNode clock).nodes
    · exact hm
    · rw [h7 r g1 hm a g2] at hr; simp at hr
  · intro r hr; rw [h1]; exact h.udp r (h4.subset hr)
  · intro r hr; rw [h1]; exact h.fresh r (h2 ▸ hr)

theorem Inv.updateNode {c : Ctrl} (h : Inv c) (cfg : NodeConfig) (now : Int) :
    Inv (c.updateNode cfg now) := by
  rcases updateNode_cases c cfg now with ⟨r, hk, e⟩ | ⟨hk, e⟩
  · obtain ⟨hr, hip⟩ := known_some hk
    rw [e]
    have hs : ∀ x, x ≠ r → (updatedAt c r cfg now).heap x = c.heap x := by
      intro x hx; simp [updatedAt, hx]
    have hself : (updatedAt c r cfg now).heap r = { c.heap r with node := cfg, lastSeen := now } := by
      simp [updatedAt]
    have hip' : ∀ x, ((updatedAt c r cfg now).heap x).node.ip = (c.heap x).node.ip := by
      intro x
      by_cases hx : x = r
      · subst hx; rw [hself]; exact hip.symm
      · rw [hs x hx]
    refine ⟨h.nodup, h.lt_next, ?_, ?_, ?_, ?_, ?_, setAll_wf (delAll_wf h.wfOut _) _ _,
      setAll_wf (delAll_wf h.wfIn _) _ _⟩
    · intro x hx y hy exy
      rw [hip', hip'] at exy
      exact h.ips x hx y hy exy
    · intro a x hx
      have hx : (setAll (delAll c.output (c.heap r).node.outputs) cfg.outputs r).get a = some x := hx
      rw [setAll_get] at hx
      split at hx
      · injection hx with hx
        subst hx
        exact ⟨hr, by rw [hself]; assumption⟩
      · rw [delAll_get] at hx
        split at hx
        · simp at hx
        · rename_i hna
          obtain ⟨g1, g2⟩ := h.out a x hx
          have hne : x ≠ r := fun e => hna (e ▸ g2)
          exact ⟨g1, by rw [hs x hne]; exact g2⟩
    · intro a x hx
      have hx : (setAll (delAll c.input (c.heap r).node.inputs) cfg.inputs r).get a = some x := hx
      rw [setAll_get] at hx
      split at hx
      · injection hx with hx
        subst hx
        exact ⟨hr, by rw [hself]; assumption⟩
      · rw [delAll_get] at hx
        split at hx
        · simp at hx
        · rename_i hna
          obtain ⟨g1, g2⟩ := h.inp a x hx
          have hne : x ≠ r := fun e => hna (e ▸ g2)
          exact ⟨g1, by rw [hs x hne]; exact g2⟩
    · intro x hx
      rw [hip']
      by_cases hxr : x = r
      · subst hxr; rw [hself]; exact h.udp x hx
      · rw [hs x hxr]; exact h.udp x hx
    · intro x hx
      have hlt : r < c.next := h.lt_next r hr
      have hx' : c.next ≤ x := hx
      rw [hs x (fun e => absurd (e ▸ hx') (Nat.not_le.mpr hlt))]
      exact h.fresh x hx'
  · rw [e]
    have hs : ∀ x, x ≠ c.next → (addedNode c cfg now).heap x = c.heap x := by
      intro x hx; simp [addedNode, hx]
    have hself : (addedNode c cfg now).heap c.next =
        ⟨now, cfg, ⟨cfg.ip, 6454⟩, 0, newBuffers cfg.outputs⟩ := by
      simp [addedNode]
    have hold : ∀ x ∈ c.nodes, x ≠ c.next := fun x hx e => absurd (h.lt_next x hx) (e ▸ Nat.lt_irrefl _)
    have hnk := known_none hk
    have hmem : ∀ x, x ∈ (addedNode c cfg now).nodes ↔ x ∈ c.nodes ∨ x = c.next := by
      intro x; simp [addedNode]
    refine ⟨?_, ?_, ?_, ?_, ?_, ?_, ?_, setAll_wf h.wfOut _ _, setAll_wf h.wfIn _ _⟩
    · show (c.nodes ++ [c.next]).Nodup
      rw [List.nodup_append]
      refine ⟨h.nodup, by simp, ?_⟩
      intro x hx y hy
      simp at hy
      rw [hy]
      exact hold x hx
    · intro x hx
      show x < c.next + 1
      rcases (hmem x).mp hx with hx | hx
      · exact Nat.lt_succ_of_lt (h.lt_next x hx)
      · rw [hx]; exact Nat.lt_succ_self _
    · intro x hx y hy exy
      rcases (hmem x).mp hx with hx | hx <;> rcases (hmem y).mp hy with hy | hy
      · rw [hs x (hold x hx), hs y (hold y hy)] at exy
        exact h.ips x hx y hy exy
      · subst hy
        rw [hs x (hold x hx), hself] at exy
        exact absurd exy (hnk x hx)
      · subst hx
        rw [hs y (hold y hy), hself] at exy
        exact absurd exy.symm (hnk y hy)
      · rw [hx, hy]
    · intro a x hx
      have hx : (setAll c.output cfg.outputs c.next).get a = some x := hx
      rw [setAll_get] at hx
      split at hx
      · injection hx with hx
        subst hx
        exact ⟨(hmem _).mpr (Or.inr rfl), by rw [hself]; assumption⟩
      · obtain ⟨g1, g2⟩ := h.out a x hx
        exact ⟨(hmem _).mpr (Or.inl g1), by rw [hs x (hold x g1)]; exact g2⟩
    · intro a x hx
      have hx : (setAll c.input cfg.inputs c.next).get a = some x := hx
      rw [setAll_get] at hx
      split at hx
      · injection hx with hx
        subst hx
        exact ⟨(hmem _).mpr (Or.inr rfl), by rw [hself]; assumption⟩
      · obtain ⟨g1, g2⟩ := h.inp a x hx
        exact ⟨(hmem _).mpr (Or.inl g1), by rw [hs x (hold x g1)]; exact g2⟩
    · intro x hx
      rcases (hmem x).mp hx with hx | hx
      · rw [hs x (hold x hx)]; exact h.udp x hx
      · subst hx; rw [hself]
    · intro x hx
      have hx' : c.next + 1 ≤ x := hx
      rw [hs x (fun e => by rw [e] at hx'; exact absurd hx' (Nat.not_succ_le_self _))]
      exact h.fresh x (Nat.le_of_succ_le hx')

theorem Inv.pollReply {c : Ctrl} (h : Inv c) (p : ArtPollReply) (now : Int) : Inv (c.pollReply p now) := by
  rw [pollReply_eq]
  split
  · exact h.updateNode _ _
  · exact h

/-! #### SendDMXToAddress -/

/-- What SendDMXToAddress can change. -/
theorem sendDMX_frame (c : Ctrl) (d : Arr 512) (a : Address) :
    (c.sendDMX d a).next = c.next ∧ (c.sendDMX d a).nodes = c.nodes ∧ (c.sendDMX d a).output = c.output ∧
    (c.sendDMX d a).input = c.input ∧ (c.sendDMX d a).maxFPS = c.maxFPS ∧
    (∀ r, ((c.sendDMX d a).heap r).lastSeen = (c.heap r).lastSeen ∧
      ((c.sendDMX d a).heap r).node = (c.heap r).node ∧
      ((c.sendDMX d a).heap r).udpAddress = (c.heap r).udpAddress ∧
      ((c.sendDMX d a).heap r).sequence = (c.heap r).sequence) ∧
    (∀ r, c.output.get a ≠ some r → (c.sendDMX d a).heap r = c.heap r) ∧
    (∀ r x, ((c.sendDMX d a).heap r).dmxBuffer.get x =
      if c.output.get a = some r ∧ x = a then
        ((c.heap r).dmxBuffer.get a).map fun b => { b with data := d, stale := true }
      else (c.heap r).dmxBuffer.get x) := by
  cases ho : c.output.get a with
  | none =>
    have e : c.sendDMX d a = c := by simp only [Ctrl.sendDMX, ho]
    rw [e]
    simp
  | some s =>
    cases hb : (c.heap s).dmxBuffer.get a with
    | none =>
      have e : c.sendDMX d a = c := by
        simp only [Ctrl.sendDMX, ho, ControlledNode.setDMXBuffer, hb, store_self]
      rw [e]
      refine ⟨rfl, rfl, rfl, rfl, rfl, by simp, by simp, ?_⟩
      intro r x
      split
      · rename_i h
        obtain ⟨h1, h2⟩ := h
        injection h1 with h1
        subst h1; subst h2
        simp [hb]
      · rfl
    | some b =>
      have e : c.sendDMX d a = c.store s { c.heap s with
          dmxBuffer := (c.heap s).dmxBuffer.set a { b with data := d, stale := true } } := by
        simp only [Ctrl.sendDMX, ho, ControlledNode.setDMXBuffer, hb]
      rw [e]
      refine ⟨rfl, rfl, rfl, rfl, rfl, ?_, ?_, ?_⟩
      · intro r
        by_cases hr : r = s
        · subst hr; simp [store_heap_same]
        · simp [store_heap_ne _ _ hr]
      · intro r hr
        exact store_heap_ne _ _ fun e => hr (by rw [e])
      · intro r x
        by_cases hr : r = s
        · subst hr
          simp only [store_heap_same, GoMap.get_set, true_and]
          by_cases hx : x = a
          · simp [hx, hb]
          · simp [hx]
        · have hr' : ¬ s = r := fun e => hr e.symm
          simp [store_heap_ne _ _ hr, hr']

theorem Inv.sendDMX {c : Ctrl} (h : Inv c) (d : Arr 512) (a : Address) : Inv (c.sendDMX d a) := by
  obtain ⟨f1, f2, f3, f4, f5, f6, f7, f8⟩ := sendDMX_frame c d a
  refine ⟨by rw [f2]; exact h.nodup, by rw [f1, f2]; exact h.lt_next, ?_, ?_, ?_, ?_, ?_,
    by rw [f3]; exact h.wfOut, by rw [f4]; exact h.wfIn⟩
  · intro r hr s hs e
    rw [(f6 r).2.1, (f6 s).2.1] at e
    rw [f2] at hr hs
    exact h.ips r hr s hs e
  · intro x r hr
    rw [f3] at hr
    rw [f2, (f6 r).2.1]
    exact h.out x r hr
  · intro x r hr
    rw [f4] at hr
    rw [f2, (f6 r).2.1]
    exact h.inp x r hr
  · intro r hr
    rw [f2] at hr
    rw [(f6 r).2.1, (f6 r).2.2.1]
    exact h.udp r hr
  · intro r hr
    rw [f1] at hr
    rw [f7 r fun ho => absurd (h.lt_next r (h.out a r ho).1) (Nat.not_lt.mpr hr)]
    exact h.fresh r hr

/-! #### ticks and histories -/

theorem Inv.tickSpec {c c' : Ctrl} {order : List Address} {now : Int} {es : List Emission} (h : Inv c)
    (t : TickSpec c order now c' es) : Inv c' := by
  refine ⟨by rw [t.nodes]; exact h.nodup, by rw [t.nodes, t.next]; exact h.lt_next, ?_, ?_, ?_, ?_, ?_,
    by rw [t.output]; exact h.wfOut, by rw [t.input]; exact h.wfIn⟩
  · intro r hr s hs e
    rw [t.node, t.node] at e
    rw [t.nodes] at hr hs
    exact h.ips r hr s hs e
  · intro x r hr
    rw [t.output] at hr
    rw [t.nodes, t.node]
    exact h.out x r hr
  · intro x r hr
    rw [t.input] at hr
    rw [t.nodes, t.node]
    exact h.inp x r hr
  · intro r hr
    rw [t.nodes] at hr
    rw [t.node, t.udp]
    exact h.udp r hr
  · intro r hr
    rw [t.next] at hr
    rw [t.idle r fun a _ ho => absurd (h.lt_next r (h.out a r ho).1) (Nat.not_lt.mpr hr)]
    exact h.fresh r hr

theorem order_nodup {c : Ctrl} (h : Inv c) {order : List Address} (ho : order.Perm c.output.keys) :
    order.Nodup := ho.nodup_iff.mpr h.wfOut

theorem tick_spec {c : Ctrl} (h : Inv c) {order : List Address} {now : Int}
    (ho : order.Perm c.output.keys) :
    TickSpec c order now (c.step (.tick order now)).1 (c.step (.tick order now)).2 :=
  tickOver_spec c order now (order_nodup h ho)

theorem Inv.step {c : Ctrl} (h : Inv c) (o : Op) (ho : c.CanDo o) : Inv (c.step o).1 := by
  cases o with
  | reply p now => exact h.pollReply p now
  | gc clock => exact h.gc clock
  | send d a => exact h.sendDMX d a
  | tick order now => exact h.tickSpec (tick_spec h ho)
  | restart => exact h.restart

theorem run_cons (c : Ctrl) (o : Op) (os : List Op) :
    (c.run (o :: os)).1 = ((c.step o).1.run os).1 ∧
    (c.run (o :: os)).2 = (c.step o).2 ++ ((c.step o).1.run os).2 := ⟨rfl, rfl⟩

theorem run_append (c : Ctrl) (os os' : List Op) :
    (c.run (os ++ os')).1 = ((c.run os).1.run os').1 ∧
    (c.run (os ++ os')).2 = (c.run os).2 ++ ((c.run os).1.run os').2 := by
  induction os generalizing c with
  | nil => exact ⟨rfl, rfl⟩
  | cons o os ih =>
    obtain ⟨h1, h2⟩ := ih (c.step o).1
    rw [List.cons_append, (run_cons c o _).1, (run_cons c o _).2, (run_cons c o os).1, (run_cons c o os).2,
      h1, h2, List.append_assoc]
    exact ⟨rfl, rfl⟩

theorem canRun_append (c : Ctrl) (os os' : List Op) :
    c.CanRun (os ++ os') ↔ c.CanRun os ∧ (c.run os).1.CanRun os' := by
  induction os generalizing c with
  | nil => simp [Ctrl.CanRun, Ctrl.run]
  | cons o os ih =>
    rw [List.cons_append, Ctrl.CanRun, Ctrl.CanRun, ih, (run_cons c o os).1, and_assoc]

theorem Inv.run {c : Ctrl} (h : Inv c) (os : List Op) (ho : c.CanRun os) : Inv (c.run os).1 := by
  induction os generalizing c with
  | nil => exact h
  | cons o os ih => exact ih (h.step o ho.1) ho.2

end Verif.Artnet
