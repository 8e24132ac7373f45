import Verif.Lemmas.Buffers
import Verif.Props.Stream
/-
The buffers that a controller keeps for its nodes: C120, C121.
-/
namespace Verif.Props
open Spec Packet Code Artnet

/-! ### C120 -/

/-- C120 as stated: a known node has buffers only for the universes it claims. -/
def C120_statement : Prop := ∀ (m : Int) (os : List Op), (Ctrl.init m).CanRun os →
  ∀ r ∈ ((Ctrl.init m).run os).1.nodes, ∀ a b, (((Ctrl.init m).run os).1.heap r).dmxBuffer.get a = some b →
    a ∈ (((Ctrl.init m).run os).1.heap r).node.outputs

/-- C120 as far as it holds: a node has buffers only for universes it claimed at some time. -/
theorem C120_partial (m : Int) (os : List Op) (h : (Ctrl.init m).CanRun os) {r : Ref}
    (hr : r ∈ ((Ctrl.init m).run os).1.nodes) {a : Address} {b : DmxBuffer}
    (hb : (((Ctrl.init m).run os).1.heap r).dmxBuffer.get a = some b) :
    Claimed os (ipOf ((Ctrl.init m).run os).1 r) a :=
  (grounded_init m os h r (((inv_init m).run os h).lt_next r hr)).2 a b hb

/-- A node that always claims the same universes has buffers only for those. -/
theorem C120_steady (m : Int) (os : List Op) (h : (Ctrl.init m).CanRun os) {r : Ref}
    (hr : r ∈ ((Ctrl.init m).run os).1.nodes) {as : List Address}
    (hs : ∀ p t, .reply p t ∈ os → p.ipAddress.val = ipOf ((Ctrl.init m).run os).1 r → (configFromArtPollReply p).outputs = as)
    {a : Address} {b : DmxBuffer} (hb : (((Ctrl.init m).run os).1.heap r).dmxBuffer.get a = some b) : a ∈ as := by
  obtain ⟨p, t, h1, _, h2, h3⟩ := C120_partial m os h hr hb
  rw [hs p t h1 h2] at h3
  exact h3

/-- A node has at most 65536 buffers, one per universe. -/
theorem C120_bounded (m : Int) (os : List Op) (h : (Ctrl.init m).CanRun os) (r : Ref) :
    (((Ctrl.init m).run os).1.heap r).dmxBuffer.keys.Nodup ∧
    (((Ctrl.init m).run os).1.heap r).dmxBuffer.length ≤ 65536 := by
  have hw : BufWF ((Ctrl.init m).run os).1 := BufWF.run (c := Ctrl.init m) (fun _ => List.nodup_nil) (inv_init m) os h
  refine ⟨hw r, ?_⟩
  have := addresses_le (hw r)
  rwa [GoMap.keys, List.length_map] at this

/-- A reply of a known node. -/
theorem reply_claims {c : Ctrl} (hi : Inv c) {p : ArtPollReply} (ht : Tracked p) (t : Int) {r : Ref} (hr : r ∈ c.nodes)
    (hip : ipOf c r = p.ipAddress.val) : c.pollReply p t = updatedAt c r (configFromArtPollReply p) t := by
  rw [pollReply_eq, if_pos ht]
  rcases updateNode_cases c (configFromArtPollReply p) t with ⟨s, hk, e⟩ | ⟨hk, _⟩
  · obtain ⟨hs, hse⟩ := known_some hk
    rw [config_ip] at hse
    cases hi.ips r hr s hs (hip.trans hse.symm)
    exact e
  · exact absurd (by rw [config_ip]; exact hip) (known_none hk r hr)

/-- The state in which the first node is known and claims universe 1. -/
theorem first_state : ∃ c, ((Ctrl.init 40).run [.reply (replyOf ipA 1) 0]).1 = c ∧ 0 ∈ c.nodes ∧ ipOf c 0 = ipA.val ∧
    (c.heap 0).node.outputs = [⟨0, 1⟩] ∧ Routed c ⟨0, 1⟩ 0 ∧ (c.heap 0).dmxBuffer.get ⟨0, 1⟩ = some .zero := by
  have e1 : (Ctrl.init 40).pollReply (replyOf ipA 1) 0 =
      addedNode (Ctrl.init 40) (configFromArtPollReply (replyOf ipA 1)) 0 := by
    rw [pollReply_eq, if_pos (replyOf_tracked ipA 1), updateNode_eq]
    rfl
  refine ⟨_, e1, List.mem_singleton.mpr rfl, ?_, ?_, ?_, ?_⟩
  · show (configFromArtPollReply (replyOf ipA 1)).ip = _
    rw [config_ip]; rfl
  · exact replyOf_outputs ipA 1
  · show (setAll [] (configFromArtPollReply (replyOf ipA 1)).outputs 0).get _ = _
    rw [replyOf_outputs]; rfl
  · show (newBuffers (configFromArtPollReply (replyOf ipA 1)).outputs).get _ = _
    rw [replyOf_outputs]; rfl

/-- A node that moves to another universe keeps its old buffer. -/
theorem C120_false : ¬ C120_statement := by
  intro h
  obtain ⟨c, hc, h1, h0, h2⟩ := moved_state
  have hcan : (Ctrl.init 40).CanRun moved := ⟨trivial, trivial, trivial⟩
  obtain ⟨c0, e0, f1, f2, f3, f4, f5⟩ := first_state
  have hi : Inv c0 := e0 ▸ (inv_init 40).run _ ⟨trivial, trivial⟩
  have hm : ((Ctrl.init 40).run moved).1 = c0.pollReply (replyOf ipA 2) second := by
    rw [← e0]; rfl
  rw [reply_claims hi (replyOf_tracked ipA 2) second f1 f2] at hm
  have := h 40 moved hcan 0 (by rw [hm]; exact f1) ⟨0, 1⟩ .zero (by rw [hm]; simp [updatedAt, f5])
  rw [hm] at this
  simp only [updatedAt, ite_true, replyOf_outputs] at this
  exact absurd this (by decide)

/-- A history in which the node always claims the same universe. -/
example : (Ctrl.init 40).CanRun [.reply (replyOf ipA 1) 0, .reply (replyOf ipA 1) second] ∧
    ∀ p t, .reply p t ∈ [Op.reply (replyOf ipA 1) 0, .reply (replyOf ipA 1) second] →
      (configFromArtPollReply p).outputs = [⟨0, 1⟩] := by
  refine ⟨⟨trivial, trivial, trivial⟩, fun p t hp => ?_⟩
  rcases List.mem_cons.mp hp with hp | hp
  · cases hp; exact replyOf_outputs ipA 1
  · cases List.mem_singleton.mp hp; exact replyOf_outputs ipA 1

/-! ### C121 -/

/-- C121 as stated: when a known node claims a universe that it did not claim before, it is sent zeros for that
universe until SendDMXToAddress is called for it. -/
def C121_statement : Prop := ∀ (m : Int) (os os' : List Op) (p : ArtPollReply) (t : Int) (r : Ref) (a : Address),
  (Ctrl.init m).CanRun (os ++ .reply p t :: os') → Tracked p → r ∈ ((Ctrl.init m).run os).1.nodes →
  ipOf ((Ctrl.init m).run os).1 r = p.ipAddress.val → a ∉ (((Ctrl.init m).run os).1.heap r).node.outputs →
  a ∈ (configFromArtPollReply p).outputs → (∀ o ∈ os', ¬ SendsTo a o) →
  ∀ e ∈ ((((Ctrl.init m).run os).1.pollReply p t).run os').2, e.ref = r → emAddress e = a →
    emChannels e = List.replicate 512 0

/-- What is sent for a universe until SendDMXToAddress is called for it is what the node object held for it, whether
or not the node claimed the universe all the time. -/
theorem C121_kept (m : Int) (os os' : List Op) (a : Address) (h : (Ctrl.init m).CanRun (os ++ os'))
    (hn : ∀ o ∈ os', ¬ SendsTo a o) :
    ∀ e ∈ (((Ctrl.init m).run os).1.run os').2, emAddress e = a →
      emChannels e = (bufferAt (((Ctrl.init m).run os).1.heap e.ref) a).data.val := by
  rw [canRun_append] at h
  exact (data_run ((inv_init m).run os h.1) os' h.2 hn).2

/-- C121 as far as it holds: when SendDMXToAddress was not called for the universe before either. -/
theorem C121_partial (m : Int) (os os' : List Op) (p : ArtPollReply) (t : Int) (a : Address)
    (h : (Ctrl.init m).CanRun (os ++ .reply p t :: os')) (hb : ∀ o ∈ os, ¬ SendsTo a o) (hn : ∀ o ∈ os', ¬ SendsTo a o) :
    ∀ e ∈ ((((Ctrl.init m).run os).1.pollReply p t).run os').2, emAddress e = a → emChannels e = List.replicate 512 0 := by
  intro e he ha
  have hn' : ∀ o ∈ Op.reply p t :: os', ¬ SendsTo a o := by
    intro o ho
    rcases List.mem_cons.mp ho with rfl | ho
    · exact id
    · exact hn o ho
  have := C121_kept m os (.reply p t :: os') a h hn' e (by
    rw [(run_cons _ _ _).2]; exact List.mem_append_right _ he) ha
  rw [canRun_append] at h
  rw [this, (data_run (inv_init m) os h.1 hb).1]
  rfl

/-- The data of before the node moved away comes back with it. -/
theorem C121_false : ¬ C121_statement := by
  intro h
  obtain ⟨c0, e0, f1, f2, f3, f4, f5⟩ := first_state
  have hi : Inv c0 := e0 ▸ (inv_init 40).run _ ⟨trivial, trivial⟩
  obtain ⟨s1, s2, s3, _, _, s6, _, s8⟩ := sendDMX_frame c0 fullOn ⟨0, 1⟩
  have hi1 : Inv (c0.sendDMX fullOn ⟨0, 1⟩) := hi.sendDMX _ _
  have n1 : 0 ∈ (c0.sendDMX fullOn ⟨0, 1⟩).nodes := by rw [s2]; exact f1
  have i1 : ipOf (c0.sendDMX fullOn ⟨0, 1⟩) 0 = ipA.val := by rw [ipOf, (s6 0).2.1]; exact f2
  have b1 : ((c0.sendDMX fullOn ⟨0, 1⟩).heap 0).dmxBuffer.get ⟨0, 1⟩ = some { DmxBuffer.zero with data := fullOn, stale := true } := by
    rw [s8, if_pos ⟨f4, rfl⟩, f5]; rfl
  have e1 : ((Ctrl.init 40).run [.reply (replyOf ipA 1) 0, .send fullOn ⟨0, 1⟩]).1 = c0.sendDMX fullOn ⟨0, 1⟩ := by
    rw [← e0]; rfl
  generalize c0.sendDMX fullOn ⟨0, 1⟩ = c1 at *
  have e2 : ((Ctrl.init 40).run [.reply (replyOf ipA 1) 0, .send fullOn ⟨0, 1⟩, .reply (replyOf ipA 2) second]).1 =
      c1.pollReply (replyOf ipA 2) second := by
    rw [← e1]; rfl
  have hi2 := hi1.pollReply (replyOf ipA 2) second
  have k2 := reply_claims hi1 (replyOf_tracked ipA 2) second n1 i1
  have n2 : 0 ∈ (c1.pollReply (replyOf ipA 2) second).nodes := by rw [k2]; exact n1
  have o2 : ((c1.pollReply (replyOf ipA 2) second).heap 0).node = configFromArtPollReply (replyOf ipA 2) := by
    rw [k2]; rfl
  have i2 : ipOf (c1.pollReply (replyOf ipA 2) second) 0 = ipA.val := by rw [ipOf, o2, config_ip]; rfl
  have b2 : ((c1.pollReply (replyOf ipA 2) second).heap 0).dmxBuffer = (c1.heap 0).dmxBuffer := by rw [k2]; rfl
  generalize c1.pollReply (replyOf ipA 2) second = c2 at *
  have hi3 := hi2.pollReply (replyOf ipA 1) (2 * second)
  have k3 := reply_claims hi2 (replyOf_tracked ipA 1) (2 * second) n2 i2
  have r3 : Routed (c2.pollReply (replyOf ipA 1) (2 * second)) ⟨0, 1⟩ 0 := by
    rw [k3]
    show (setAll _ (configFromArtPollReply (replyOf ipA 1)).outputs 0).get _ = _
    rw [setAll_get, replyOf_outputs, if_pos (by simp)]
  have b3 : bufferAt ((c2.pollReply (replyOf ipA 1) (2 * second)).heap 0) ⟨0, 1⟩ =
      { DmxBuffer.zero with data := fullOn, stale := true } := by
    rw [bufferAt, k3]
    show ((c2.heap 0).dmxBuffer.get ⟨0, 1⟩).getD _ = _
    rw [b2, b1]; rfl
  obtain ⟨k, _⟩ := C49_keep_alive _ hi3.wfOut (c2.pollReply (replyOf ipA 1) (2 * second)).output.keys (List.Perm.refl _)
    (3 * second) ⟨0, 1⟩ 0 r3
  obtain ⟨e, he, _, g2, g3, g4⟩ := k (by rw [b3]; decide)
  have hcan : (Ctrl.init 40).CanRun ([.reply (replyOf ipA 1) 0, .send fullOn ⟨0, 1⟩, .reply (replyOf ipA 2) second] ++
      .reply (replyOf ipA 1) (2 * second) :: [.tick (c2.pollReply (replyOf ipA 1) (2 * second)).output.keys (3 * second)]) := by
    rw [canRun_append]
    refine ⟨⟨trivial, trivial, trivial, trivial⟩, trivial, ?_, trivial⟩
    rw [e2]
    exact List.Perm.refl _
  have := h 40 _ _ (replyOf ipA 1) (2 * second) 0 ⟨0, 1⟩ hcan (replyOf_tracked ipA 1) (by rw [e2]; exact n2)
    (by rw [e2]; exact i2) (by rw [e2, o2, replyOf_outputs]; decide) (by rw [replyOf_outputs]; simp)
    (by intro o ho; cases List.mem_singleton.mp ho; exact id) e
    (by
      rw [e2, (run_cons _ _ _).2]
      exact List.mem_append_left _ he) g3 g2
  rw [g4, b3] at this
  have h3 : (0xff : UInt8) ∈ List.replicate 512 0 := by
    rw [← this]
    exact List.mem_replicate.mpr ⟨by decide, rfl⟩
  exact absurd (List.mem_replicate.mp h3).2 (by decide)

/-- Data sent for another universe, and a node that then claims universe 2 for the first time. -/
example : (Ctrl.init 40).CanRun ([.reply (replyOf ipA 1) 0, .send fullOn ⟨0, 1⟩] ++ .reply (replyOf ipA 2) second :: []) ∧
    (∀ o ∈ [Op.reply (replyOf ipA 1) 0, .send fullOn ⟨0, 1⟩], ¬ SendsTo ⟨0, 2⟩ o) := by
  refine ⟨⟨trivial, trivial, trivial, trivial⟩, fun o ho => ?_⟩
  rcases List.mem_cons.mp ho with rfl | ho
  · exact id
  · cases List.mem_singleton.mp ho
    exact fun h => absurd (congrArg Address.subUni h) (by decide)

end Verif.Props
