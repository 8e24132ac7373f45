import Verif.Props.Controller
/-
C137: nodes with more than four ports, which announce themselves on several pages (BindIndex).
-/
namespace Verif.Props
open Artnet Packet Code Spec

/-- The announcements `ps`, with their times of arrival. -/
def pages (ps : List (ArtPollReply × Int)) : List Op := ps.map fun p => .reply p.1 p.2

/-- C137: a node that announces itself on several pages, with different BindIndex, is sent data for the ports of every page. -/
def C137_statement : Prop := ∀ (m : Int) (os : List Op) (ps : List (ArtPollReply × Int)) (ip : Bytes), (Ctrl.init m).CanRun os →
  (∀ p ∈ ps, Tracked p.1 ∧ p.1.ipAddress.val = ip) → (ps.map fun p => p.1.bindIndex).Nodup →
  ∀ p ∈ ps, ∀ a ∈ (configFromArtPollReply p.1).outputs,
    ∃ r, Routed ((Ctrl.init m).run (os ++ pages ps)).1 a r ∧ ipOf ((Ctrl.init m).run (os ++ pages ps)).1 r = ip

/-- After a page the node has the ports of that page only; what the page before claimed is not routed to anybody. -/
theorem page_next {c : Ctrl} (hc : Inv c) {r : Ref} (hr : r ∈ c.nodes) (p : ArtPollReply) (t : Int) (hp : Tracked p)
    (hip : p.ipAddress.val = (c.heap r).node.ip) :
    (c.pollReply p t).nodes = c.nodes ∧ ((c.pollReply p t).heap r).node = configFromArtPollReply p ∧
    ∀ a, (c.pollReply p t).output.get a =
      if a ∈ (configFromArtPollReply p).outputs then some r
      else if a ∈ (c.heap r).node.outputs then none else c.output.get a := by
  rw [pollReply_eq, if_pos hp]
  have hip' : (configFromArtPollReply p).ip = (c.heap r).node.ip := by rw [config_ip, hip]
  obtain ⟨s, k, e⟩ | ⟨k, e⟩ := updateNode_cases c (configFromArtPollReply p) t
  · obtain ⟨hs, i⟩ := known_some k
    have : s = r := hc.ips s hs r hr (by rw [i, hip'])
    subst this
    rw [e]
    refine ⟨rfl, by simp [updatedAt], fun a => ?_⟩
    simp only [updatedAt, setAll_get, delAll_get]
  · exact absurd hip'.symm (known_none k r hr)

theorem pages_run {c : Ctrl} (hc : Inv c) {r : Ref} (hr : r ∈ c.nodes) {ip : Bytes} (hi : (c.heap r).node.ip = ip)
    (ps : List (ArtPollReply × Int)) (h : ∀ p ∈ ps, Tracked p.1 ∧ p.1.ipAddress.val = ip) (old : Address → Prop)
    (ho : ∀ a, old a → c.output.get a = if a ∈ (c.heap r).node.outputs then some r else none)
    (hn : ∀ a ∈ (c.heap r).node.outputs, c.output.get a = some r) (last : NodeConfig) (hl : (c.heap r).node = last) :
    let d := (c.run (pages ps)).1
    let cfg := (ps.map fun p => configFromArtPollReply p.1).getLastD last
    r ∈ d.nodes ∧ (d.heap r).node = cfg ∧
    ∀ a, (old a ∨ a ∈ last.outputs ∨ ∃ p ∈ ps, a ∈ (configFromArtPollReply p.1).outputs) →
      d.output.get a = if a ∈ cfg.outputs then some r else none := by
  induction ps generalizing c last old with
  | nil =>
    refine ⟨hr, hl, fun a ha => ?_⟩
    show c.output.get a = if a ∈ last.outputs then some r else none
    rw [← hl]
    rcases ha with ha | ha | ⟨p, hp, _⟩
    · exact ho a ha
    · rw [← hl] at ha
      rw [if_pos ha, hn a ha]
    · cases hp
  | cons p ps ih =>
    obtain ⟨tr, pip⟩ := h p List.mem_cons_self
    obtain ⟨n1, n2, n3⟩ := page_next hc hr p.1 p.2 tr (by rw [pip, hi])
    have hc' : Inv (c.pollReply p.1 p.2) := hc.pollReply _ _
    have := ih hc' (n1 ▸ hr) (by rw [n2, config_ip, pip]) (fun q hq => h q (List.mem_cons_of_mem _ hq))
      (fun a => old a ∨ a ∈ last.outputs) ?_ ?_ (configFromArtPollReply p.1) n2
    · obtain ⟨i1, i2, i3⟩ := this
      have e : ((p :: ps).map fun p => configFromArtPollReply p.1).getLastD last =
          (ps.map fun p => configFromArtPollReply p.1).getLastD (configFromArtPollReply p.1) := by
        rw [List.map_cons, List.getLastD_cons]
      refine ⟨i1, ?_, fun a ha => ?_⟩
      · show _ = ((p :: ps).map fun p => configFromArtPollReply p.1).getLastD last
        rw [e]
        exact i2
      · show _ = if a ∈ (((p :: ps).map fun p => configFromArtPollReply p.1).getLastD last).outputs then some r else none
        rw [e]
        apply i3 a
        rcases ha with ha | ha | ⟨q, hq, ha⟩
        · exact .inl (.inl ha)
        · exact .inl (.inr ha)
        · rcases List.mem_cons.mp hq with rfl | hq
          · exact .inr (.inl ha)
          · exact .inr (.inr ⟨q, hq, ha⟩)
    · intro a ha
      rw [n3, n2]
      split
      · rfl
      · split
        · rfl
        · rename_i h1 h2
          rcases ha with ha | ha
          · rw [ho a ha, if_neg h2]
          · exact absurd (hl ▸ ha) h2
    · intro a ha
      rw [n2] at ha
      rw [n3, if_pos ha]

/-- C137, exactly: after the pages the node has the ports of the last page only. Of the universes on all pages those on the last are
routed to the node, and the others are not routed at all. -/
theorem C137_partial (m : Int) (os : List Op) (ps : List (ArtPollReply × Int)) (last : ArtPollReply × Int) (ip : Bytes)
    (h : (Ctrl.init m).CanRun os) (hp : ∀ p ∈ ps ++ [last], Tracked p.1 ∧ p.1.ipAddress.val = ip) :
    let c := ((Ctrl.init m).run (os ++ pages (ps ++ [last]))).1
    ∃ r ∈ c.nodes, (c.heap r).node = configFromArtPollReply last.1 ∧
    ∀ p ∈ ps ++ [last], ∀ a ∈ (configFromArtPollReply p.1).outputs,
      (Routed c a r ↔ a ∈ (configFromArtPollReply last.1).outputs) ∧
      (a ∉ (configFromArtPollReply last.1).outputs → ∀ s, ¬ Routed c a s) := by
  have hi := (inv_init m).run os h
  rw [(run_append _ _ _).1]
  generalize ((Ctrl.init m).run os).1 = c at hi
  cases hq : ps ++ [last] with
  | nil => simp at hq
  | cons q qs =>
    rw [hq] at hp
    obtain ⟨tr, qip⟩ := hp q List.mem_cons_self
    obtain ⟨r, hr, e1, -, e3, -⟩ := reply_entry hi q.1 q.2 tr
    have key := pages_run (hi.pollReply q.1 q.2) hr (ip := ip) (by rw [e1, config_ip, qip]) qs
      (fun p hp' => hp p (List.mem_cons_of_mem _ hp')) (fun _ => False) (fun _ => False.elim) (by rw [e1]; exact e3) _ e1
    have el : (qs.map fun p => configFromArtPollReply p.1).getLastD (configFromArtPollReply q.1) =
        configFromArtPollReply last.1 := by
      have := congrArg (fun l => (l.map fun p => configFromArtPollReply p.1).getLastD NodeConfig.zero) hq
      simp only [List.map_append, List.map_cons, List.map_nil, List.getLastD_cons] at this
      rw [← this]
      simp
    simp only [el] at key
    obtain ⟨k1, k2, k3⟩ := key
    refine ⟨r, k1, k2, fun p hp' a ha => ?_⟩
    have := k3 a (by
      rcases List.mem_cons.mp hp' with rfl | hp'
      · exact .inr (.inl ha)
      · exact .inr (.inr ⟨p, hp', ha⟩))
    have e : ((c.run (pages (q :: qs))).1.output.get a) = if a ∈ (configFromArtPollReply last.1).outputs then some r else none := this
    unfold Routed
    rw [e]
    split <;> rename_i hl
    · exact ⟨⟨fun _ => hl, fun _ => rfl⟩, fun hn => absurd hl hn⟩
    · exact ⟨⟨fun hx => (by cases hx), fun hx => absurd hx hl⟩, fun _ s hx => by cases hx⟩

/-- Two pages of a node at 10.0.0.1: universe 1 on the first, universe 2 on the second. -/
def twoPages : List (ArtPollReply × Int) := [({ replyOf ipA 1 with bindIndex := 1 }, 0), ({ replyOf ipA 2 with bindIndex := 2 }, 0)]

theorem C137_false : ¬ C137_statement := by
  intro h
  obtain ⟨r, hr, _⟩ := h 40 [] twoPages ipA.val trivial (by
    intro p hp
    simp only [twoPages, List.mem_cons, List.not_mem_nil, or_false] at hp
    rcases hp with rfl | rfl
    · exact ⟨.inl (by decide +kernel), rfl⟩
    · exact ⟨.inl (by decide +kernel), rfl⟩) (by decide +kernel) _ List.mem_cons_self ⟨0, 1⟩ (by decide +kernel)
  revert hr
  have : ((Ctrl.init 40).run ([] ++ pages twoPages)).1.output.get ⟨0, 1⟩ = none := by decide +kernel
  unfold Routed
  rw [this]
  exact nofun

/-- The last page is routed. -/
example : ((Ctrl.init 40).run (pages twoPages)).1.output.get ⟨0, 2⟩ = some 0 ∧
    ((Ctrl.init 40).run (pages twoPages)).1.output.get ⟨0, 1⟩ = none := by decide +kernel

end Verif.Props
