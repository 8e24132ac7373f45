import Verif.Props.Encode
import Verif.Props.Decode
import Verif.Props.Registers
import Verif.Props.Announce
import Verif.Props.Print
import Verif.Props.Buffers
import Verif.Props.Dropped
import Verif.Props.Pages
import Verif.Lemmas.Finite
/-
For which packets, registers, configurations and histories C11, C20, C25, C26, C35, C36, C51, C72, C110, C111, C120, C122
and C137 hold.
-/
namespace Verif.Props
open Spec Packet Code Artnet

/-! ### Packets: C11, C20 -/

/-- C11, exactly: of the packets that a constructor makes, those of ArtPoll, ArtPollReply and ArtDMX come back, and no
others. -/
theorem C11_exact (p : AnyPacket) (h : FreshlyFilled p) :
    (∃ q, unmarshal (p.marshalBinary).2.1 = .ok (some q, none) ∧ opcodeFor q = opcodeFor p) ↔
    opcodeFor p ∈ [0x2000, 0x2100, 0x5000] := by
  have hk : NoOpcode p ↔ ¬ opcodeFor p ∈ [0x2000, 0x2100, 0x5000] := by
    cases p <;> simp [NoOpcode, opcodeFor]
  constructor
  · rintro ⟨q, hq, _⟩
    refine Classical.byContradiction fun hn => ?_
    rw [C11_constructor_rejected p (hk.mpr hn) h] at hq
    cases hq
  · intro ho
    exact C11_partial p (fun hn => hk.mp hn ho) h

example : FreshlyFilled (.sync ArtSync.new) ∧ FreshlyFilled (.dmx ArtDMX.new) ∧
    opcodeFor (.sync ArtSync.new) ∉ [0x2000, 0x2100, 0x5000] ∧ opcodeFor (.dmx ArtDMX.new) ∈ [0x2000, 0x2100, 0x5000] :=
  ⟨rfl, rfl, by decide, by decide⟩

/-- C20, exactly: two ArtDMX objects decode a datagram to the same packet if and only if they agreed before on the channels
that the datagram does not set. -/
theorem C20_exact (p q r : ArtDMX) (b : Bytes) (hne : opOf b ≠ 0x0021) (hp : p.unmarshalBinary b = .ok (r, none)) :
    q.unmarshalBinary b = .ok (r, none) ↔ ∀ i : Fin 512, (be16At b 16).toNat ≤ i.val → p.data.get i = q.data.get i := by
  obtain ⟨d, hd, hg⟩ := C20_partial.2 p r b hne hp
  constructor
  · intro hq i hi
    obtain ⟨d', hd', hg'⟩ := C20_partial.2 q r b hne hq
    have : d = d' := by rw [hd] at hd'; exact congrArg ArtDMX.data hd'
    subst this
    have h1 := hg i
    have h2 := hg' i
    rw [if_neg (by omega)] at h1 h2
    exact h1.symm.trans h2
  · intro h
    have hl : ¬ b.length < 18 := fun hl => by rw [ArtDMX.unmarshal_short p b hl] at hp; simp at hp
    have he : ∃ r', q.unmarshalBinary b = .ok (r', none) := by
      rw [ArtDMX.unmarshal_eq p b (by omega), if_pos (fun hc => hne ((be16_pollReply_iff b).mp hc))] at hp
      rw [ArtDMX.unmarshal_eq q b (by omega), if_pos (fun hc => hne ((be16_pollReply_iff b).mp hc))]
      by_cases hk : HdrOK b
      · rw [(header_validate_ok b).2 hk] at hp ⊢
        simp only at hp ⊢
        split at hp
        · rename_i hc
          rw [if_pos hc]
          exact ⟨_, rfl⟩
        · injection hp with hp; simp at hp
      · obtain ⟨hd, e, he⟩ := header_validate_bad b hk
        rw [he] at hp
        simp only at hp
        injection hp with hp; simp at hp
    obtain ⟨r', hr'⟩ := he
    obtain ⟨d', hd', hg'⟩ := C20_partial.2 q r' b hne hr'
    have : d = d' := by
      have hi : ∀ i : Fin 512, d.get i = d'.get i := fun i => by
        rw [hg i, hg' i]
        split
        · rfl
        · exact h i (by omega)
      apply Arr.ext
      apply List.ext_getElem (by rw [d.len, d'.len])
      intro i h1 _
      exact hi ⟨i, by rw [← d.len]; exact h1⟩
    rw [hr', hd, hd', this]

/-- The new object and the used one differ on the channels that the two-channel frame does not set. -/
example : opOf dmx2 ≠ 0x0021 ∧ (∃ r, ArtDMX.new.unmarshalBinary dmx2 = .ok (r, none)) ∧ (be16At dmx2 16).toNat = 2 ∧
    ArtDMX.new.data.get 2 ≠ staleDMX.data.get 2 := by
  obtain ⟨r, _, h, _⟩ := C20_dmx_stale_tail
  exact ⟨by decide, ⟨r, h⟩, by decide, by decide +kernel⟩

/-! ### Registers: C25, C26, C122 -/

/-- C25, exactly: what is written to a flag is read back if it is set, or if it was clear before. -/
theorem C25_exact (f : Flag) (hf : f ∈ flags) (s : UInt8) (b : Bool) :
    f.get (f.set s b) = b ↔ b = true ∨ f.get s = false := by
  rw [C25_partial f hf]
  cases b <;> simp

/-- C26, exactly: what is written is read back for "front" and "locate"; for "unknown" if the lower bit of the field is
clear; and for no other value. -/
theorem C26_exact (s : UInt8) :
    (∀ v ∈ ["unknown", "front", "net", "unused"], (Status1.portAddr (Status1.withPortAddr s v) = v ↔
      v = "front" ∨ (v = "unknown" ∧ bitOf s 4 = false))) ∧
    (∀ v ∈ ["unknown", "locate", "mute", "normal"], (Status1.indicator (Status1.withIndicator s v) = v ↔
      v = "locate" ∨ (v = "unknown" ∧ bitOf s 6 = false))) :=
  forall_u8 (P := fun s => (∀ v ∈ ["unknown", "front", "net", "unused"], (Status1.portAddr (Status1.withPortAddr s v) = v ↔
      v = "front" ∨ (v = "unknown" ∧ bitOf s 4 = false))) ∧
    (∀ v ∈ ["unknown", "locate", "mute", "normal"], (Status1.indicator (Status1.withIndicator s v) = v ↔
      v = "locate" ∨ (v = "unknown" ∧ bitOf s 6 = false)))) (by decide +kernel) s

/-- C122, exactly: Status1 is printed as it is documented if and only if the upper bits of its two fields of two bits are
clear. -/
theorem C122_exact (s : UInt8) :
    Status1.str s = lineOf "yes" "no" s [("Status1: UBEA: ", 0), (", RDM: ", 1), (", BootRom: ", 2)] ++
      ", PortAddr: " ++ authorityOf s ++ ", Indicator: " ++ indicatorOf s ↔ bitOf s 5 = false ∧ bitOf s 7 = false :=
  forall_u8 (P := fun s => Status1.str s = lineOf "yes" "no" s [("Status1: UBEA: ", 0), (", RDM: ", 1), (", BootRom: ", 2)] ++
      ", PortAddr: " ++ authorityOf s ++ ", Indicator: " ++ indicatorOf s ↔ bitOf s 5 = false ∧ bitOf s 7 = false)
    (by decide +kernel) s

/-! ### Configurations: C35, C36, C110, C111 -/

/-- C35, exactly: of the nodes with a declared style, those whose ports all have the base address and an empty status are
discovered with the addresses and the status that they are configured with. -/
theorem C35_exact (c : NodeConfig) (hv : ValidConfig c) (hs : c.type < 7) :
    (∀ d, Discovers c d →
      (∀ (i : Nat) (a : InputPort), c.inputPorts[i]? = some a →
        ∃ b, d.inputPorts[i]? = some b ∧ b.address = a.address ∧ b.status = a.status) ∧
      (∀ (i : Nat) (a : OutputPort), c.outputPorts[i]? = some a →
        ∃ b, d.outputPorts[i]? = some b ∧ b.address = a.address ∧ b.status = a.status)) ↔
    (∀ a ∈ c.inputPorts, a.address = c.baseAddress ∧ a.status = 0) ∧
    (∀ a ∈ c.outputPorts, a.address = c.baseAddress ∧ a.status = 0) := by
  constructor
  · intro h
    obtain ⟨d, hd, _⟩ := C34_partial c hv hs
    obtain ⟨h1, h2⟩ := h d hd
    obtain ⟨_, _, g1, g2⟩ := C35_partial c d hv hd
    constructor
    · intro a ha
      obtain ⟨i, hi⟩ := List.getElem?_of_mem ha
      obtain ⟨b, hb, e1, e2⟩ := h1 i a hi
      obtain ⟨b', hb', f1, f2, _⟩ := g1 i a hi
      cases (hb.symm.trans hb')
      exact ⟨e1.symm.trans f1, e2.symm.trans f2⟩
    · intro a ha
      obtain ⟨i, hi⟩ := List.getElem?_of_mem ha
      obtain ⟨b, hb, e1, e2⟩ := h2 i a hi
      obtain ⟨b', hb', f1, f2, _⟩ := g2 i a hi
      cases (hb.symm.trans hb')
      exact ⟨e1.symm.trans f1, e2.symm.trans f2⟩
  · rintro ⟨h1, h2⟩ d hd
    obtain ⟨_, _, g1, g2⟩ := C35_partial c d hv hd
    constructor
    · intro i a hi
      obtain ⟨b, hb, f1, f2, _⟩ := g1 i a hi
      obtain ⟨e1, e2⟩ := h1 a (List.mem_of_getElem? hi)
      exact ⟨b, hb, f1.trans e1.symm, f2.trans e2.symm⟩
    · intro i a hi
      obtain ⟨b, hb, f1, f2, _⟩ := g2 i a hi
      obtain ⟨e1, e2⟩ := h2 a (List.mem_of_getElem? hi)
      exact ⟨b, hb, f1.trans e1.symm, f2.trans e2.symm⟩

example : ValidConfig cfg1 ∧ cfg1.type < 7 ∧ ∃ a ∈ cfg1.outputPorts, a.address ≠ cfg1.baseAddress :=
  ⟨cfg1_valid, by decide, by decide⟩

/-- C36, exactly: of the announcements whose switches are nibbles, those that advertise no port, and those with the sub-net 0,
are discovered at their Port-Addresses. -/
theorem C36_exact (p : ArtPollReply) (hs : p.subSwitch < 16) (ho : ∀ i, p.swOut.get i < 16) (hi : ∀ i, p.swIn.get i < 16) :
    ((configFromArtPollReply p).outputPorts.map (fun q => (q.address.net, q.address.subUni.toNat)) =
      (advertised p 7).map (fun i => (p.netSwitch, 16 * p.subSwitch.toNat + (p.swOut.get i).toNat)) ∧
    (configFromArtPollReply p).inputPorts.map (fun q => (q.address.net, q.address.subUni.toNat)) =
      (advertised p 6).map (fun i => (p.netSwitch, 16 * p.subSwitch.toNat + (p.swIn.get i).toNat))) ↔
    p.subSwitch = 0 ∨ (advertised p 7 = [] ∧ advertised p 6 = []) := by
  obtain ⟨h1, h2⟩ := discovered_ports p
  obtain ⟨_, _, _, h4⟩ := C36_partial p
  rw [h1, h2, List.map_map, List.map_map, List.map_inj_left, List.map_inj_left]
  simp only [Function.comp_apply, Prod.mk.injEq, true_and, h4 _ _ hs (ho _), h4 _ _ hs (hi _)]
  constructor
  · rintro ⟨g1, g2⟩
    by_cases h0 : p.subSwitch = 0
    · exact .inl h0
    · exact .inr ⟨List.eq_nil_iff_forall_not_mem.mpr fun i hm => h0 (g1 i hm),
        List.eq_nil_iff_forall_not_mem.mpr fun i hm => h0 (g2 i hm)⟩
  · rintro (h0 | ⟨g1, g2⟩)
    · exact ⟨fun _ _ => h0, fun _ _ => h0⟩
    · rw [g1, g2]
      exact ⟨nofun, nofun⟩

example : reply36.subSwitch < 16 ∧ (∀ i, reply36.swOut.get i < 16) ∧ (∀ i, reply36.swIn.get i < 16) ∧
    reply36.subSwitch ≠ 0 ∧ advertised reply36 7 ≠ [] := by decide

/-- C110, exactly: the error describes what is wrong unless there are too many output ports and not too many input ports. -/
theorem C110_exact (c : NodeConfig) (e : ConfigErr) (h : c.validate = .ok (some e)) :
    Describes c e ↔ c.outputPorts.length ≤ 4 ∨ 4 < c.inputPorts.length := by
  obtain ⟨h1, _, h3, _⟩ := C110_partial c e h
  refine ⟨fun hd => ?_, h1⟩
  refine Classical.byContradiction fun hn => ?_
  rw [not_or, Nat.not_le, Nat.not_lt] at hn
  rw [h3 hn.2 hn.1] at hd
  have := hd.2
  omega

example : ∃ e, cfg5.validate = .ok (some e) := ⟨_, rfl⟩

/-- C111, exactly: each field ends with a zero byte if the text is shorter than the field or has a zero byte itself. -/
theorem C111_exact (c : NodeConfig) (p : ArtPollReply) (h : artPollReplyFromConfig c = .ok p) :
    (0 ∈ field (p.marshalBinary).2.1 26 18 ∧ 0 ∈ field (p.marshalBinary).2.1 44 64 ∧
      0 ∈ field (p.marshalBinary).2.1 108 64) ↔
    (c.name.length < 18 ∨ 0 ∈ c.name.take 18) ∧ (c.description.length < 64 ∨ 0 ∈ c.description.take 64) ∧
      (c.report.length < 64 ∨ 0 ∈ c.report.take 64) := by
  obtain ⟨_, h1, h2, h3⟩ := C111_partial c p h
  rw [h1, h2, h3]

example : ∃ p, artPollReplyFromConfig { NodeConfig.zero with name := List.replicate 18 0x61 } = .ok p :=
  ⟨_, artPollReplyFromConfig_eq _⟩

/-! ### Histories: C51, C72, C120, C137 -/

/-- C51, exactly: no sequence number is 0 if and only if no node was sent as many as 256 datagrams. -/
theorem C51_exact (m : Int) (os : List Op) (h : (Ctrl.init m).CanRun os) :
    (∀ e ∈ ((Ctrl.init m).run os).2, emSequence e ≠ 0) ↔
    ∀ r, (((Ctrl.init m).run os).2.countP fun e => e.ref = r) < 256 := by
  simp only [List.countP_eq_length_filter]
  constructor
  · intro hn r
    refine Classical.byContradiction fun hl => ?_
    rw [Nat.not_lt] at hl
    have hg := List.getElem?_eq_getElem (l := (((Ctrl.init m).run os).2.filter (·.ref = r))) (i := 255) (by omega)
    have h0 := (C51_partial m os h r 255 _ hg).mpr rfl
    exact hn _ (List.mem_filter.mp (List.getElem_mem _)).1 h0
  · intro hl e he h0
    have hm : e ∈ ((Ctrl.init m).run os).2.filter (·.ref = e.ref) := List.mem_filter.mpr ⟨he, decide_eq_true rfl⟩
    obtain ⟨k, hk⟩ := List.getElem?_of_mem hm
    have h1 := (C51_partial m os h e.ref k e hk).mp h0
    have h2 := (List.getElem?_eq_some_iff.mp hk).1
    have h3 := hl e.ref
    omega

example : ∀ n, (Ctrl.init 40).CanRun (manyTicks n) ∧
    (((Ctrl.init 40).run (manyTicks n)).2.countP fun e => e.ref = 0) = n := by
  intro n
  obtain ⟨h1, h2, h3⟩ := manyTicks_emit n
  refine ⟨h1, ?_⟩
  rw [List.countP_eq_length_filter, List.filter_eq_self.mpr fun e he => decide_eq_true (h3 e he), h2]

/-- C72, exactly: after a restart the universes of the known nodes are routed if and only if the known nodes claim none. -/
theorem C72_exact (m : Int) (os : List Op) :
    (∀ r ∈ ((Ctrl.init m).run (os ++ [.restart])).1.nodes,
      ∀ a ∈ (((Ctrl.init m).run (os ++ [.restart])).1.heap r).node.outputs,
        ∃ s, Routed ((Ctrl.init m).run (os ++ [.restart])).1 a s) ↔
    ∀ r ∈ ((Ctrl.init m).run os).1.nodes, (((Ctrl.init m).run os).1.heap r).node.outputs = [] := by
  rw [(run_append _ _ _).1]
  generalize ((Ctrl.init m).run os).1 = c
  show (∀ r ∈ c.nodes, ∀ a ∈ (c.heap r).node.outputs, ∃ s, Routed (c.step .restart).1 a s) ↔ _
  constructor
  · intro h r hr
    refine List.eq_nil_iff_forall_not_mem.mpr fun a ha => ?_
    obtain ⟨s, hs⟩ := h r hr a ha
    have hs : (c.step .restart).1.output.get a = some s := hs
    rw [(C72_nothing_routed c a).2.1] at hs
    cases hs
  · intro h r hr a ha
    rw [h r hr] at ha
    cases ha

/-- The moved node is known when the Controller is restarted, and it claims a universe. -/
example : ((Ctrl.init 40).run moved).1.nodes = [0] ∧ (((Ctrl.init 40).run moved).1.heap 0).node.outputs ≠ [] := by
  decide +kernel

/-- C120, exactly: a node has buffers only for the universes it claims if and only if it claims every universe that it claimed
when it became known, and every one that a tick found routed to it. -/
theorem C120_exact (m : Int) (os : List Op) (h : (Ctrl.init m).CanRun os) (r : Ref) :
    (∀ a b, (((Ctrl.init m).run os).1.heap r).dmxBuffer.get a = some b →
      a ∈ (((Ctrl.init m).run os).1.heap r).node.outputs) ↔
    ∀ a pre o post, os = pre ++ o :: post → Prepares ((Ctrl.init m).run pre).1 a r o →
      a ∈ (((Ctrl.init m).run os).1.heap r).node.outputs := by
  have key := fun a => prepares_run (inv_init m) os h a r
  constructor
  · intro hb a pre o post e hp
    obtain ⟨b, hb'⟩ := (key a).mpr (.inr ⟨pre, o, post, e, hp⟩)
    exact hb a b hb'
  · intro hp a b hb
    rcases (key a).mp ⟨b, hb⟩ with ⟨b', hb'⟩ | ⟨pre, o, post, e, hp'⟩
    · cases hb'
    · exact hp a pre o post e hp'

/-- A node that moves from universe 1 to universe 2. -/
example : (Ctrl.init 40).CanRun moved ∧ Prepares ((Ctrl.init 40).run []).1 ⟨0, 1⟩ 0 (.reply (replyOf ipA 1) 0) ∧
    (((Ctrl.init 40).run moved).1.heap 0).node.outputs = [⟨0, 2⟩] := by
  refine ⟨⟨trivial, trivial, trivial⟩, ⟨replyOf_tracked _ _, ?_, rfl, nofun⟩, by decide +kernel⟩
  rw [replyOf_outputs]
  exact List.mem_cons_self

/-- C137, exactly: the universes of all pages are routed to the node if and only if they are all on the last page. -/
theorem C137_exact (m : Int) (os : List Op) (ps : List (ArtPollReply × Int)) (last : ArtPollReply × Int) (ip : Bytes)
    (h : (Ctrl.init m).CanRun os) (hp : ∀ p ∈ ps ++ [last], Tracked p.1 ∧ p.1.ipAddress.val = ip) :
    (∀ p ∈ ps ++ [last], ∀ a ∈ (configFromArtPollReply p.1).outputs,
      ∃ r, Routed ((Ctrl.init m).run (os ++ pages (ps ++ [last]))).1 a r ∧
        ipOf ((Ctrl.init m).run (os ++ pages (ps ++ [last]))).1 r = ip) ↔
    ∀ p ∈ ps, ∀ a ∈ (configFromArtPollReply p.1).outputs, a ∈ (configFromArtPollReply last.1).outputs := by
  obtain ⟨r, hr, hn, hg⟩ := C137_partial m os ps last ip h hp
  constructor
  · intro ha p hp' a hm
    obtain ⟨s, hs, _⟩ := ha p (List.mem_append_left _ hp') a hm
    exact Classical.byContradiction fun hc => (hg p (List.mem_append_left _ hp') a hm).2 hc s hs
  · intro ha p hp' a hm
    have hl : a ∈ (configFromArtPollReply last.1).outputs := by
      rcases List.mem_append.mp hp' with h1 | h1
      · exact ha p h1 a hm
      · rw [List.mem_singleton] at h1
        rw [← h1]; exact hm
    refine ⟨r, (hg p hp' a hm).1.mpr hl, ?_⟩
    rw [ipOf, hn, config_ip]
    exact (hp last (List.mem_append_right _ List.mem_cons_self)).2

example : ∀ p ∈ twoPages, Tracked p.1 ∧ p.1.ipAddress.val = ipA.val := by
  intro p hp
  simp only [twoPages, List.mem_cons, List.not_mem_nil, or_false] at hp
  rcases hp with rfl | rfl
  · exact ⟨.inl (by decide +kernel), rfl⟩
  · exact ⟨.inl (by decide +kernel), rfl⟩

end Verif.Props
