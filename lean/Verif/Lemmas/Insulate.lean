import Verif.Lemmas.Independent
import Verif.Lemmas.Config
/-
Two controllers that agree as far as one universe is concerned, but for hosts that do not claim it.
-/
namespace Verif.Artnet
open Spec Packet Code

/-- Two node objects that agree as far as universe `a` is concerned. -/
structure Match (a : Address) (x y : ControlledNode) : Prop where
  lastSeen : y.lastSeen = x.lastSeen
  node : y.node = x.node
  udp : y.udpAddress = x.udpAddress
  buffer : y.dmxBuffer.get a = x.dmxBuffer.get a

theorem Match.refl (a : Address) (x : ControlledNode) : Match a x x := ⟨rfl, rfl, rfl, rfl⟩

theorem Match.symm {a : Address} {x y : ControlledNode} (h : Match a x y) : Match a y x :=
  ⟨h.lastSeen.symm, h.node.symm, h.udp.symm, h.buffer.symm⟩

theorem Match.trans {a : Address} {x y z : ControlledNode} (h : Match a x y) (k : Match a y z) : Match a x z :=
  ⟨k.lastSeen.trans h.lastSeen, k.node.trans h.node, k.udp.trans h.udp, k.buffer.trans h.buffer⟩

/-- What `c` knows, except about the hosts `X`, is known to `d`. -/
structure Half (X : Bytes → Prop) (a : Address) (c d : Ctrl) : Prop where
  maxFPS : d.maxFPS = c.maxFPS
  node : ∀ r ∈ c.nodes, ¬ X (c.heap r).node.ip → ∃ s ∈ d.nodes, Match a (c.heap r) (d.heap s)
  route : ∀ r, c.output.get a = some r → ∃ s, d.output.get a = some s ∧ Match a (c.heap r) (d.heap s)
  away : ∀ r ∈ c.nodes, X (c.heap r).node.ip → a ∉ (c.heap r).node.outputs

/-- Both directions. -/
def Iso (X : Bytes → Prop) (a : Address) (c d : Ctrl) : Prop := Half X a c d ∧ Half X a d c

theorem Half.trans {X : Bytes → Prop} {a : Address} {c d e : Ctrl} (h : Half X a c d) (k : Half X a d e) : Half X a c e := by
  refine ⟨k.maxFPS.trans h.maxFPS, ?_, ?_, h.away⟩
  · intro r hr hx
    obtain ⟨s, hs, m⟩ := h.node r hr hx
    obtain ⟨t, ht, m'⟩ := k.node s hs (by rw [m.node]; exact hx)
    exact ⟨t, ht, m.trans m'⟩
  · intro r hr
    obtain ⟨s, hs, m⟩ := h.route r hr
    obtain ⟨t, ht, m'⟩ := k.route s hs
    exact ⟨t, ht, m.trans m'⟩

theorem Iso.symm {X : Bytes → Prop} {a : Address} {c d : Ctrl} (h : Iso X a c d) : Iso X a d c := ⟨h.2, h.1⟩

theorem Iso.trans {X : Bytes → Prop} {a : Address} {c d e : Ctrl} (h : Iso X a c d) (k : Iso X a d e) : Iso X a c e :=
  ⟨h.1.trans k.1, k.2.trans h.2⟩

/-- A route leads to a host outside `X`. -/
theorem Half.outside {X : Bytes → Prop} {a : Address} {c d : Ctrl} (h : Half X a c d) (hc : Inv c) {r : Ref}
    (hr : c.output.get a = some r) : ¬ X (c.heap r).node.ip :=
  fun hx => h.away r (hc.out a r hr).1 hx (hc.out a r hr).2

theorem Half.found {X : Bytes → Prop} {a : Address} {c d : Ctrl} (h : Half X a c d) (hd : Inv d) {r s : Ref}
    (hr : r ∈ c.nodes) (hs : s ∈ d.nodes) (hx : ¬ X (c.heap r).node.ip) (he : (d.heap s).node.ip = (c.heap r).node.ip) :
    Match a (c.heap r) (d.heap s) := by
  obtain ⟨s', hs', m⟩ := h.node r hr hx
  have : s' = s := hd.ips s' hs' s hs (by rw [m.node, he])
  exact this ▸ m

/-- Matching nodes are routed alike. -/
theorem Half.routed {X : Bytes → Prop} {a : Address} {c d : Ctrl} (h : Half X a c d) (hd : Inv d) {r s : Ref}
    (hs : s ∈ d.nodes) (m : Match a (c.heap r) (d.heap s)) (hr : c.output.get a = some r) : d.output.get a = some s := by
  obtain ⟨s', hs', m'⟩ := h.route r hr
  have : s' = s := hd.ips s' (hd.out a s' hs').1 s hs (by rw [m.node, m'.node])
  exact this ▸ hs'

/-! #### announcements -/

theorem Half.pollReply {X : Bytes → Prop} {a : Address} {c d : Ctrl} (h : Iso X a c d) (hc : Inv c) (hd : Inv d)
    (p : ArtPollReply) (now : Int) (hx : ¬ X (configFromArtPollReply p).ip) :
    Half X a (c.pollReply p now) (d.pollReply p now) := by
  rw [pollReply_eq, pollReply_eq]
  split
  case isFalse => exact h.1
  generalize configFromArtPollReply p = cfg at hx
  obtain ⟨r0, k1, e1⟩ | ⟨k1, e1⟩ := updateNode_cases c cfg now <;>
  obtain ⟨s0, k2, e2⟩ | ⟨k2, e2⟩ := updateNode_cases d cfg now <;> rw [e1, e2]
  · obtain ⟨hr0, i1⟩ := known_some k1
    obtain ⟨hs0, i2⟩ := known_some k2
    have m0 := h.1.found hd hr0 hs0 (by rw [i1]; exact hx) (by rw [i1, i2])
    have m0' : Match a ((updatedAt c r0 cfg now).heap r0) ((updatedAt d s0 cfg now).heap s0) := by
      simp only [updatedAt, if_true]
      exact ⟨rfl, rfl, m0.udp, m0.buffer⟩
    have other : ∀ {r s}, r ∈ c.nodes → s ∈ d.nodes → r ≠ r0 → Match a (c.heap r) (d.heap s) →
        Match a ((updatedAt c r0 cfg now).heap r) ((updatedAt d s0 cfg now).heap s) := by
      intro r s hr hs hne m
      have hne' : s ≠ s0 := by
        rintro rfl
        exact hne (hc.ips r hr r0 hr0 (by rw [← m.node, i1, i2]))
      simp only [updatedAt, if_neg hne, if_neg hne']
      exact m
    refine ⟨h.1.maxFPS, ?_, ?_, ?_⟩
    · intro r hr hxr
      by_cases hne : r = r0
      · subst hne
        exact ⟨s0, hs0, m0'⟩
      · simp only [updatedAt, if_neg hne] at hxr
        obtain ⟨s, hs, m⟩ := h.1.node r hr hxr
        exact ⟨s, hs, other hr hs hne m⟩
    · intro r hr
      simp only [updatedAt, setAll_get, delAll_get] at hr
      show ∃ s, (setAll (delAll d.output (d.heap s0).node.outputs) cfg.outputs s0).get a = some s ∧ _
      simp only [setAll_get, delAll_get, m0.node]
      by_cases h1 : a ∈ cfg.outputs
      · rw [if_pos h1] at hr ⊢
        cases hr
        exact ⟨s0, rfl, m0'⟩
      · rw [if_neg h1] at hr ⊢
        by_cases h2 : a ∈ (c.heap r0).node.outputs
        · rw [if_pos h2] at hr
          cases hr
        · rw [if_neg h2] at hr ⊢
          obtain ⟨s, hs, m⟩ := h.1.route r hr
          refine ⟨s, hs, other (hc.out a r hr).1 (hd.out a s hs).1 ?_ m⟩
          rintro rfl
          exact h2 (hc.out a _ hr).2
    · intro r hr hxr
      by_cases hne : r = r0
      · subst hne
        simp only [updatedAt, if_true] at hxr
        exact absurd hxr hx
      · simp only [updatedAt, if_neg hne] at hxr ⊢
        exact h.1.away r hr hxr
  · obtain ⟨hr0, i1⟩ := known_some k1
    obtain ⟨s, hs, m⟩ := h.1.node r0 hr0 (by rw [i1]; exact hx)
    exact absurd (by rw [m.node, i1]) (known_none k2 s hs)
  · obtain ⟨hs0, i2⟩ := known_some k2
    obtain ⟨s, hs, m⟩ := h.2.node s0 hs0 (by rw [i2]; exact hx)
    exact absurd (by rw [m.node, i2]) (known_none k1 s hs)
  · have m0 : Match a ((addedNode c cfg now).heap c.next) ((addedNode d cfg now).heap d.next) := by
      simp only [addedNode, if_true]
      exact ⟨rfl, rfl, rfl, rfl⟩
    have other : ∀ {r s}, r ∈ c.nodes → s ∈ d.nodes → Match a (c.heap r) (d.heap s) →
        Match a ((addedNode c cfg now).heap r) ((addedNode d cfg now).heap s) := by
      intro r s hr hs m
      simp only [addedNode, if_neg (Nat.ne_of_lt (hc.lt_next r hr)), if_neg (Nat.ne_of_lt (hd.lt_next s hs))]
      exact m
    have split : ∀ {r}, r ∈ (addedNode c cfg now).nodes → r ∈ c.nodes ∨ r = c.next := by
      intro r hr
      rcases List.mem_append.mp hr with hr | hr
      · exact .inl hr
      · exact .inr (List.mem_singleton.mp hr)
    refine ⟨h.1.maxFPS, ?_, ?_, ?_⟩
    · intro r hr hxr
      rcases split hr with hr | rfl
      · simp only [addedNode, if_neg (Nat.ne_of_lt (hc.lt_next r hr))] at hxr
        obtain ⟨s, hs, m⟩ := h.1.node r hr hxr
        exact ⟨s, List.mem_append.mpr (.inl hs), other hr hs m⟩
      · exact ⟨d.next, List.mem_append.mpr (.inr (List.mem_singleton.mpr rfl)), m0⟩
    · intro r hr
      simp only [addedNode, setAll_get] at hr
      show ∃ s, (setAll d.output cfg.outputs d.next).get a = some s ∧ _
      simp only [setAll_get]
      by_cases h1 : a ∈ cfg.outputs
      · rw [if_pos h1] at hr ⊢
        cases hr
        exact ⟨d.next, rfl, m0⟩
      · rw [if_neg h1] at hr ⊢
        obtain ⟨s, hs, m⟩ := h.1.route r hr
        exact ⟨s, hs, other (hc.out a r hr).1 (hd.out a s hs).1 m⟩
    · intro r hr hxr
      rcases split hr with hr | rfl
      · simp only [addedNode, if_neg (Nat.ne_of_lt (hc.lt_next r hr))] at hxr ⊢
        exact h.1.away r hr hxr
      · simp only [addedNode, if_true] at hxr
        exact absurd hxr hx

/-- The announcement of a host in `X` that does not claim the universe. -/
theorem Iso.outsider {X : Bytes → Prop} {a : Address} {c d : Ctrl} (h : Half X a c d) (hc : Inv c) (p : ArtPollReply) (now : Int)
    (hx : X (configFromArtPollReply p).ip) (ha : Abstains a p) : Iso X a c (c.pollReply p now) := by
  have self : Iso X a c c :=
    ⟨⟨rfl, fun r hr _ => ⟨r, hr, .refl _ _⟩, fun r hr => ⟨r, hr, .refl _ _⟩, h.away⟩,
      ⟨rfl, fun r hr _ => ⟨r, hr, .refl _ _⟩, fun r hr => ⟨r, hr, .refl _ _⟩, h.away⟩⟩
  rw [pollReply_eq]
  split
  case isFalse => exact self
  unfold Abstains at ha
  generalize configFromArtPollReply p = cfg at hx ha
  obtain ⟨r0, k1, e1⟩ | ⟨k1, e1⟩ := updateNode_cases c cfg now <;> rw [e1]
  · obtain ⟨hr0, i1⟩ := known_some k1
    have haway := h.away r0 hr0 (by rw [i1]; exact hx)
    have out : (updatedAt c r0 cfg now).output.get a = c.output.get a := by
      simp only [updatedAt, setAll_get, delAll_get, if_neg ha, if_neg haway]
    have keep : ∀ {r}, ¬ X (c.heap r).node.ip → (updatedAt c r0 cfg now).heap r = c.heap r := by
      intro r hxr
      have : r ≠ r0 := by
        rintro rfl
        exact hxr (by rw [i1]; exact hx)
      simp only [updatedAt, if_neg this]
    have keep' : ∀ {r}, ¬ X ((updatedAt c r0 cfg now).heap r).node.ip → (updatedAt c r0 cfg now).heap r = c.heap r := by
      intro r hxr
      by_cases hne : r = r0
      · subst hne
        simp only [updatedAt, if_true] at hxr
        exact absurd hx hxr
      · simp only [updatedAt, if_neg hne]
    refine ⟨⟨rfl, ?_, ?_, h.away⟩, ⟨rfl, ?_, ?_, ?_⟩⟩
    · intro r hr hxr
      exact ⟨r, hr, by rw [keep hxr]; exact .refl _ _⟩
    · intro r hr
      exact ⟨r, by rw [out]; exact hr, by rw [keep (h.outside hc hr)]; exact .refl _ _⟩
    · intro r hr hxr
      exact ⟨r, hr, by rw [keep' hxr]; exact .refl _ _⟩
    · intro r hr
      rw [out] at hr
      exact ⟨r, hr, by rw [keep (h.outside hc hr)]; exact .refl _ _⟩
    · intro r hr hxr
      by_cases hne : r = r0
      · subst hne
        simp only [updatedAt, if_true]
        exact ha
      · simp only [updatedAt, if_neg hne] at hxr ⊢
        exact h.away r hr hxr
  · have out : (addedNode c cfg now).output.get a = c.output.get a := by
      simp only [addedNode, setAll_get, if_neg ha]
    have keep : ∀ {r}, r ∈ c.nodes → (addedNode c cfg now).heap r = c.heap r := by
      intro r hr
      simp only [addedNode, if_neg (Nat.ne_of_lt (hc.lt_next r hr))]
    have new : (addedNode c cfg now).heap c.next = ⟨now, cfg, ⟨cfg.ip, 6454⟩, 0, newBuffers cfg.outputs⟩ := by
      simp only [addedNode, if_true]
    have split : ∀ {r}, r ∈ (addedNode c cfg now).nodes → r ∈ c.nodes ∨ r = c.next := by
      intro r hr
      rcases List.mem_append.mp hr with hr | hr
      · exact .inl hr
      · exact .inr (List.mem_singleton.mp hr)
    refine ⟨⟨rfl, ?_, ?_, h.away⟩, ⟨rfl, ?_, ?_, ?_⟩⟩
    · intro r hr hxr
      exact ⟨r, List.mem_append.mpr (.inl hr), by rw [keep hr]; exact .refl _ _⟩
    · intro r hr
      exact ⟨r, by rw [out]; exact hr, by rw [keep (hc.out a r hr).1]; exact .refl _ _⟩
    · intro r hr hxr
      rcases split hr with hr | rfl
      · exact ⟨r, hr, by rw [keep hr]; exact .refl _ _⟩
      · rw [new] at hxr
        exact absurd hx hxr
    · intro r hr
      rw [out] at hr
      exact ⟨r, hr, by rw [keep (hc.out a r hr).1]; exact .refl _ _⟩
    · intro r hr hxr
      rcases split hr with hr | rfl
      · rw [keep hr] at hxr ⊢
        exact h.away r hr hxr
      · rw [new]
        exact ha

/-! #### the other operations -/

theorem Half.sendDMX {X : Bytes → Prop} {a : Address} {c d : Ctrl} (h : Iso X a c d) (hc : Inv c) (hd : Inv d) (x : Arr 512) :
    Half X a (c.sendDMX x a) (d.sendDMX x a) := by
  obtain ⟨-, f2, f3, -, f5, f6, -, f8⟩ := sendDMX_frame c x a
  obtain ⟨-, g2, g3, -, g5, g6, -, g8⟩ := sendDMX_frame d x a
  have key : ∀ {r s}, r ∈ c.nodes → s ∈ d.nodes → Match a (c.heap r) (d.heap s) →
      Match a ((c.sendDMX x a).heap r) ((d.sendDMX x a).heap s) := by
    intro r s hr hs m
    refine ⟨by rw [(f6 r).1, (g6 s).1, m.lastSeen], by rw [(f6 r).2.1, (g6 s).2.1, m.node],
      by rw [(f6 r).2.2.1, (g6 s).2.2.1, m.udp], ?_⟩
    rw [f8, g8]
    have e : c.output.get a = some r ↔ d.output.get a = some s :=
      ⟨h.1.routed hd hs m, h.2.routed hc hr m.symm⟩
    by_cases hr' : c.output.get a = some r
    · rw [if_pos ⟨e.mp hr', rfl⟩, if_pos ⟨hr', rfl⟩, m.buffer]
    · rw [if_neg fun k => hr' (e.mpr k.1), if_neg fun k => hr' k.1, m.buffer]
  refine ⟨by rw [f5, g5, h.1.maxFPS], ?_, ?_, ?_⟩
  · intro r hr hxr
    rw [f2] at hr
    rw [(f6 r).2.1] at hxr
    obtain ⟨s, hs, m⟩ := h.1.node r hr hxr
    exact ⟨s, by rw [g2]; exact hs, key hr hs m⟩
  · intro r hr
    rw [f3] at hr
    obtain ⟨s, hs, m⟩ := h.1.route r hr
    exact ⟨s, by rw [g3]; exact hs, key (hc.out a r hr).1 (hd.out a s hs).1 m⟩
  · intro r hr hxr
    rw [f2] at hr
    rw [(f6 r).2.1] at hxr ⊢
    exact h.1.away r hr hxr

theorem Iso.otherSend {X : Bytes → Prop} {a : Address} {c d : Ctrl} (h : Half X a c d) (x : Arr 512) {b : Address} (hb : b ≠ a) :
    Iso X a c (c.sendDMX x b) := by
  obtain ⟨-, f2, f3, -, f5, f6, -, f8⟩ := sendDMX_frame c x b
  have key : ∀ r, Match a (c.heap r) ((c.sendDMX x b).heap r) := by
    intro r
    refine ⟨(f6 r).1, (f6 r).2.1, (f6 r).2.2.1, ?_⟩
    rw [f8, if_neg fun k => hb k.2.symm]
  refine ⟨⟨f5, fun r hr _ => ⟨r, by rw [f2]; exact hr, key r⟩, fun r hr => ⟨r, by rw [f3]; exact hr, key r⟩, h.away⟩,
    ⟨f5.symm, fun r hr _ => ⟨r, by rw [f2] at hr; exact hr, (key r).symm⟩, fun r hr => ⟨r, by rw [f3] at hr; exact hr, (key r).symm⟩, ?_⟩⟩
  intro r hr hxr
  rw [f2] at hr
  rw [(f6 r).2.1] at hxr ⊢
  exact h.away r hr hxr

theorem gc_at {c : Ctrl} (hc : Inv c) (t : Int) :
    (c.gcNode fun _ => t).heap = c.heap ∧ (c.gcNode fun _ => t).maxFPS = c.maxFPS ∧
    (∀ r, r ∈ (c.gcNode fun _ => t).nodes ↔ r ∈ c.nodes ∧ ¬ (c.heap r).lastSeen + staleAfter < t) ∧
    ∀ a, (c.gcNode fun _ => t).output.get a =
      if ∃ r ∈ c.nodes, (c.heap r).lastSeen + staleAfter < t ∧ a ∈ (c.heap r).node.outputs then none else c.output.get a := by
  obtain ⟨⟨h1, -, h3, h4, h5, h6, -, h8, -⟩, h12⟩ := gcNode_spec c (fun _ => t) hc.nodup
  have hm : ∀ r, r ∈ (c.gcNode fun _ => t).nodes ↔ r ∈ c.nodes ∧ ¬ (c.heap r).lastSeen + staleAfter < t := by
    intro r
    constructor
    · intro hr
      obtain ⟨_, hj⟩ := h12 r hr
      exact ⟨h4.subset hr, hj⟩
    · rintro ⟨hr, hn⟩
      by_cases hg : r ∈ (c.gcNode fun _ => t).nodes
      · exact hg
      · obtain ⟨_, hj⟩ := h5 r hr hg
        exact absurd hj hn
  refine ⟨h1, h3, hm, fun a => ?_⟩
  split
  · rename_i hex
    obtain ⟨r, hr, hst, ha⟩ := hex
    exact h6 r hr (fun hg => ((hm r).mp hg).2 hst) a ha
  · rename_i hex
    refine h8 a fun r hr hg ha => hex ⟨r, hr, ?_, ha⟩
    obtain ⟨_, hj⟩ := h5 r hr hg
    exact hj

theorem Half.gcNode {X : Bytes → Prop} {a : Address} {c d : Ctrl} (h : Iso X a c d) (hc : Inv c) (hd : Inv d) (t : Int) :
    Half X a (c.gcNode fun _ => t) (d.gcNode fun _ => t) := by
  obtain ⟨f1, f2, f3, f4⟩ := gc_at hc t
  obtain ⟨g1, g2, g3, g4⟩ := gc_at hd t
  refine ⟨by rw [f2, g2, h.1.maxFPS], ?_, ?_, ?_⟩
  · intro r hr hxr
    rw [f1] at hxr
    obtain ⟨hr, hn⟩ := (f3 r).mp hr
    obtain ⟨s, hs, m⟩ := h.1.node r hr hxr
    exact ⟨s, (g3 s).mpr ⟨hs, by rw [m.lastSeen]; exact hn⟩, by rw [f1, g1]; exact m⟩
  · intro r hr
    rw [f4] at hr
    split at hr
    · cases hr
    · rename_i hex
      obtain ⟨s, hs, m⟩ := h.1.route r hr
      refine ⟨s, ?_, by rw [f1, g1]; exact m⟩
      rw [g4, if_neg]
      · exact hs
      · rintro ⟨y, hy, hst, hay⟩
        have hxy : ¬ X (d.heap y).node.ip := fun hx => h.2.away y hy hx hay
        obtain ⟨z, hz, mz⟩ := h.2.node y hy hxy
        exact hex ⟨z, hz, by rw [mz.lastSeen]; exact hst, by rw [mz.node]; exact hay⟩
  · intro r hr hxr
    rw [f1] at hxr ⊢
    exact h.1.away r ((f3 r).mp hr).1 hxr

theorem Half.tick {X : Bytes → Prop} {a : Address} {c d c' d' : Ctrl} (h : Iso X a c d) (hc : Inv c) (hd : Inv d)
    {o1 o2 : List Address} {now : Int} {e1 e2 : List Emission} (h1 : TickSpec c o1 now c' e1) (h2 : TickSpec d o2 now d' e2)
    (p1 : o1.Perm c.output.keys) (p2 : o2.Perm d.output.keys) : Half X a c' d' := by
  have key : ∀ {r s}, r ∈ c.nodes → s ∈ d.nodes → Match a (c.heap r) (d.heap s) → Match a (c'.heap r) (d'.heap s) := by
    intro r s hr hs m
    refine ⟨by rw [h1.lastSeen, h2.lastSeen, m.lastSeen], by rw [h1.node, h2.node, m.node], by rw [h1.udp, h2.udp, m.udp], ?_⟩
    rw [h1.buffer, h2.buffer]
    have e : c.output.get a = some r ↔ d.output.get a = some s :=
      ⟨h.1.routed hd hs m, h.2.routed hc hr m.symm⟩
    by_cases hr' : c.output.get a = some r
    · have k1 : a ∈ o1 := p1.mem_iff.mpr ((GoMap.mem_keys_iff _ _).mpr ⟨r, hr'⟩)
      have k2 : a ∈ o2 := p2.mem_iff.mpr ((GoMap.mem_keys_iff _ _).mpr ⟨s, e.mp hr'⟩)
      rw [if_pos ⟨k2, e.mp hr'⟩, if_pos ⟨k1, hr'⟩, h.1.maxFPS]
      unfold bufferAt
      rw [m.buffer]
    · rw [if_neg fun k => hr' (e.mpr k.2), if_neg fun k => hr' k.2, m.buffer]
  refine ⟨by rw [h1.maxFPS, h2.maxFPS, h.1.maxFPS], ?_, ?_, ?_⟩
  · intro r hr hxr
    rw [h1.nodes] at hr
    rw [h1.node] at hxr
    obtain ⟨s, hs, m⟩ := h.1.node r hr hxr
    exact ⟨s, by rw [h2.nodes]; exact hs, key hr hs m⟩
  · intro r hr
    rw [h1.output] at hr
    obtain ⟨s, hs, m⟩ := h.1.route r hr
    exact ⟨s, by rw [h2.output]; exact hs, key (hc.out a r hr).1 (hd.out a s hs).1 m⟩
  · intro r hr hxr
    rw [h1.nodes] at hr
    rw [h1.node] at hxr ⊢
    exact h.1.away r hr hxr

theorem Half.restart {X : Bytes → Prop} {a : Address} {c d : Ctrl} (h : Half X a c d) : Half X a c.restart d.restart :=
  ⟨h.maxFPS, h.node, fun r hr => (by cases hr), h.away⟩

/-! #### histories -/

theorem flowOf_append (a : Address) (es es' : List Emission) : flowOf a (es ++ es') = flowOf a es ++ flowOf a es' := by
  simp [flowOf]

theorem flowOf_stream (a : Address) (es : List Emission) : flowOf a es = (streamOf a es).map fun x => (x.2.1, x.2.2.2) := by
  unfold flowOf streamOf
  rw [List.map_map]
  rfl

theorem tick_flow {c c' : Ctrl} {order : List Address} {now : Int} {es : List Emission} (hc : Inv c)
    (t : TickSpec c order now c' es) (ho : order.Perm c.output.keys) (a : Address) :
    flowOf a es = match c.output.get a with
      | none => []
      | some r => if Due (bufferAt (c.heap r) a) now c.maxFPS then [((c.heap r).udpAddress, (bufferAt (c.heap r) a).data.val)] else [] := by
  rw [flowOf_stream, tick_stream t, List.map_replicate]
  unfold dueIn contentAt
  cases hr : c.output.get a with
  | none => rfl
  | some r =>
    have h1 : order.count a = 1 := by
      rw [(order_nodup hc ho).count, if_pos (ho.mem_iff.mpr ((GoMap.mem_keys_iff _ _).mpr ⟨r, hr⟩))]
    simp only [Option.getD_some, h1, decide_eq_true_eq]
    split <;> rfl

theorem Iso.flow {X : Bytes → Prop} {a : Address} {c d c' d' : Ctrl} (h : Iso X a c d) (hc : Inv c) (hd : Inv d)
    {o1 o2 : List Address} {now : Int} {e1 e2 : List Emission} (h1 : TickSpec c o1 now c' e1) (h2 : TickSpec d o2 now d' e2)
    (p1 : o1.Perm c.output.keys) (p2 : o2.Perm d.output.keys) : flowOf a e2 = flowOf a e1 := by
  rw [tick_flow hc h1 p1, tick_flow hd h2 p2]
  cases hr : c.output.get a with
  | none =>
    cases hs : d.output.get a with
    | none => rfl
    | some s =>
      obtain ⟨r, hr', _⟩ := h.2.route s hs
      rw [hr] at hr'
      cases hr'
  | some r =>
    obtain ⟨s, hs, m⟩ := h.1.route r hr
    have hb : bufferAt (d.heap s) a = bufferAt (c.heap r) a := by
      unfold bufferAt
      rw [m.buffer]
    simp only [hs, hb, m.udp, h.1.maxFPS]

theorem insulate_run {X : Bytes → Prop} {a : Address} {os os' : List Op} (hs : SameBut X a os os') : ∀ {c d : Ctrl}, Iso X a c d →
    Inv c → Inv d → c.CanRun os → d.CanRun os' → flowOf a (d.run os').2 = flowOf a (c.run os).2 := by
  induction hs with
  | nil => exact fun _ _ _ _ _ => rfl
  | sendL x hb _ ih =>
    intro c d h hc hd h1 h2
    exact ih ((Iso.otherSend h.1 x hb).symm.trans h) (hc.step _ h1.1) hd h1.2 h2
  | sendR x hb _ ih =>
    intro c d h hc hd h1 h2
    exact ih (h.trans (Iso.otherSend h.2 x hb)) hc (hd.step _ h2.1) h1 h2.2
  | replyL p t hx ha _ ih =>
    intro c d h hc hd h1 h2
    exact ih ((Iso.outsider h.1 hc p t (by rw [configFromArtPollReply_eq]; exact hx) ha).symm.trans h) (hc.step _ h1.1) hd h1.2 h2
  | replyR p t hx ha _ ih =>
    intro c d h hc hd h1 h2
    exact ih (h.trans (Iso.outsider h.2 hd p t (by rw [configFromArtPollReply_eq]; exact hx) ha)) hc (hd.step _ h2.1) h1 h2.2
  | reply p t hx _ ih =>
    intro c d h hc hd h1 h2
    have hx' : ¬ X (configFromArtPollReply p).ip := by rw [configFromArtPollReply_eq]; exact hx
    exact ih ⟨Half.pollReply h hc hd p t hx', Half.pollReply h.symm hd hc p t hx'⟩ (hc.step _ h1.1) (hd.step _ h2.1) h1.2 h2.2
  | send x _ ih =>
    intro c d h hc hd h1 h2
    exact ih ⟨Half.sendDMX h hc hd x, Half.sendDMX h.symm hd hc x⟩ (hc.step _ h1.1) (hd.step _ h2.1) h1.2 h2.2
  | gc t _ ih =>
    intro c d h hc hd h1 h2
    exact ih ⟨Half.gcNode h hc hd t, Half.gcNode h.symm hd hc t⟩ (hc.step _ h1.1) (hd.step _ h2.1) h1.2 h2.2
  | tick order order' now _ ih =>
    intro c d h hc hd h1 h2
    have t1 := tick_spec hc (now := now) h1.1
    have t2 := tick_spec hd (now := now) h2.1
    rw [(run_cons _ _ _).2, (run_cons _ _ _).2, flowOf_append, flowOf_append, h.flow hc hd t1 t2 h1.1 h2.1,
      ih ⟨Half.tick h hc hd t1 t2 h1.1 h2.1, Half.tick h.symm hd hc t2 t1 h2.1 h1.1⟩ (hc.step _ h1.1) (hd.step _ h2.1) h1.2 h2.2]
  | restart _ ih =>
    intro c d h hc hd h1 h2
    exact ih ⟨h.1.restart, h.2.restart⟩ (hc.step _ h1.1) (hd.step _ h2.1) h1.2 h2.2

end Verif.Artnet
