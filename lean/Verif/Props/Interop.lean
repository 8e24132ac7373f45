import Verif.Props.Linear
import Verif.Lemmas.Stamp
/-
What one instance of the library sends, another one understands: C80, C81.
-/
namespace Verif.Props
open Spec Packet Code Artnet Conc

/-! ### C80 -/

instance (e : Emission) : Decidable (IsDMX e) := by unfold IsDMX; infer_instance

/-- A datagram of the update loop is accepted, with the universe and the channels that are in it. -/
theorem dmx_understood {e : Emission} (h : IsDMX e) : ∃ x : ArtDMX, unmarshal e.data = .ok (some (.dmx x), none) ∧
    (⟨x.net, x.subUni⟩ : Address) = emAddress e ∧ x.sequence = emSequence e ∧ x.length = 512 ∧
    x.data.val = emChannels e := by
  obtain ⟨hl, ht, h16, h17⟩ := h
  have htake : ∀ i, i < 12 → byteAt e.data i =
      byteAt [0x41, 0x72, 0x74, 0x2d, 0x4e, 0x65, 0x74, 0x00, 0x00, 0x50, 0x00, 0x0e] i := by
    intro i hi
    rw [← ht, byteAt, byteAt, List.getElem?_take_of_lt hi]
  have ho : opOf e.data = 0x5000 := by
    unfold opOf le16At
    rw [htake 8 (by decide), htake 9 (by decide)]
    decide
  have hh : HeaderOK e.data := by
    refine ⟨by omega, ?_, .inr ?_⟩
    · have := congrArg (List.take 8) ht
      rw [List.take_take] at this
      exact this
    · rw [htake 11 (by decide)]
      decide
  have hlen : be16At e.data 16 = 512 := by
    unfold be16At
    rw [h16, h17]
    decide
  obtain ⟨h1, h2⟩ := C03_dmx_acceptance e.data hh ho
  rw [hlen] at h1
  obtain ⟨p, hp⟩ := h1.mpr (by rw [hl]; decide)
  obtain ⟨x, rfl, q1, q2, _, q4, q5, q6⟩ := h2 p hp
  refine ⟨x, hp, by rw [q4, q5]; rfl, q2, q1.trans hlen, ?_⟩
  apply List.ext_getElem
  · rw [x.data.len, emChannels, List.length_drop, hl]
  · intro i hi _
    have hi : i < 512 := by rw [x.data.len] at hi; exact hi
    have := q6 ⟨i, hi⟩
    rw [hlen, if_pos (show i < UInt16.toNat 512 from hi), Arr.get] at this
    rw [this]
    simp only [byteAt, emChannels, List.getElem_drop]
    rw [List.getElem?_eq_getElem (by omega)]
    rfl

/-- C80 as stated: every datagram that the library writes is accepted by a receiver that uses the library. -/
def C80_statement : Prop := ∀ (P : Params) (s : Sys), Reach P s → ∀ p ∈ s.wire, ∃ q, decode (trunc p) = some q

/-- A node with a style that is not declared. -/
def sampleStyle7 : Params := Params.ofNode (newNode [0x6e] 7 [2, 0, 0, 1] [])

/-- Its announcement is rejected. -/
theorem C80_false : ¬ C80_statement := by
  intro h
  have h1 : after sampleStyle7 samplePollAnswered (fun s => s.wire.any fun p => (decode (trunc p)).isNone) = true := by
    decide +kernel
  obtain ⟨s, hr, _, hs⟩ := after_reach h1
  obtain ⟨p, hp, hd⟩ := List.any_eq_true.mp hs
  obtain ⟨q, hq⟩ := h _ s hr p hp
  rw [hq] at hd
  cases hd

theorem decode_of {p : Payload} {q : AnyPacket} (h : unmarshal p.data = .ok (some q, none))
    (hl : p.data.length ≤ 4096) : decode (trunc p) = some q := by
  simp only [decode, trunc, List.take_of_length_le hl, h]

/-- A node that does not belong to a controller emits no DMX. -/
theorem no_emissions {P : Params} {s : Sys} (h : Reach P s) (hc : P.controller = false) : s.emitted = [] := by
  refine Reach.induct (P := P) (I := fun s => s.emitted = []) rfl ?_ h
  intro s s' hr ih _ hst
  cases hst with
  | pushDmx ht =>
    have := (threads_ok hr _ (List.mem_of_getElem? ht)).2 rfl
    rw [hc] at this
    cases this
  | startPanic | startFail | start =>
    simp only [Sys.reset, Sys.panic, Sys.makeChannels, Sys.resetTables]
    split <;> exact ih
  | _ => exact ih

/-- C80 as far as it holds: if the style is declared (StNode … StVisual), a receiver that uses the library
decodes every datagram: as the announcement of the configuration, as the ArtPoll of a controller, or as an
ArtDMX packet of a controller, with 512 channels that are zero or the data of a call of SendDMXToAddress for
its universe. -/
theorem C80_partial {P : Params} {as : List Act} {s : Sys} (hst : P.config.type < 7)
    (h : (Sys.init P).execs P as = some s) : ∀ p ∈ s.wire, ∃ q, decode (trunc p) = some q ∧
      ((p.address = P.broadcast ∧ q = received (.pollReply (announced P.config))) ∨
       (P.controller = true ∧ p.address = P.ctrlBroadcast ∧
        ∃ x : ArtPoll, q = .poll x ∧ x.talkToMe = 0x02 ∧ x.priority = 0) ∨
       (P.controller = true ∧ ∃ x : ArtDMX, q = .dmx x ∧ x.length = 512 ∧
        (x.data = Arr.zero 512 ∨ .call x.data ⟨x.net, x.subUni⟩ ∈ as))) := by
  intro p hp
  have hlen : (pollReplyImage (announced P.config)).length = 239 := by
    rw [← ArtPollReply.image_eq]
    exact binaryWrite_length _
  rcases C76_wire h p hp with h1 | ⟨hc, h1⟩ | ⟨e, h1, hd, ⟨x, hx, _, q, _, _⟩, hdata⟩
  · have hrt := ArtPollReply.roundtrip (announced P.config) (Or.inl rfl) hst
    rw [ArtPollReply.image_eq] at hrt
    refine ⟨_, decode_of (by rw [h1]; exact hrt) ?_, .inl ⟨by rw [h1], rfl⟩⟩
    rw [h1]
    show (pollReplyImage (announced P.config)).length ≤ 4096
    omega
  · have hrt := ArtPoll.roundtrip { ArtPoll.new with
      talkToMe := TalkToMe.withReplyOnChange 0 true
      priority := PriorityCode.dpAll }
    refine ⟨_, decode_of (by rw [h1]; exact hrt) (by rw [h1]; show pollBytes.length ≤ 4096; decide),
      .inr (.inl ⟨hc, by rw [h1], _, rfl, ?_, ?_⟩)⟩
    · show TalkToMe.withReplyOnChange 0 true = 0x02
      decide
    · rfl
  · obtain ⟨y, h2, h3, _, h4, h5⟩ := dmx_understood hd
    refine ⟨_, decode_of (by rw [h1]; exact h2) (by rw [h1]; show e.data.length ≤ 4096; rw [hd.1]; decide),
      .inr (.inr ⟨?_, y, rfl, h4, ?_⟩)⟩
    · cases hcc : P.controller with
      | true => rfl
      | false =>
        cases wire_sent ⟨as, h⟩ p hp with
        | poll hc => rw [hcc] at hc; cases hc
        | dmx e' he' => rw [no_emissions ⟨as, h⟩ hcc] at he'; cases he'
        | reply me hm hp =>
          rw [me_eq] at hm
          rw [h1, ← Except.ok.inj hm] at hp
          have hl : e.data.length = (pollReplyImage (announced P.config)).length :=
            congrArg (fun x : Payload => x.data.length) hp
          rw [hd.1, hlen] at hl
          omega
    · rcases hdata with hz | ⟨d, hc, hv⟩
      · left
        apply Arr.ext
        rw [h5, hz]
        rfl
      · right
        have : y.data = d := Arr.ext (h5.trans hv)
        rw [this, h3]
        exact hc

/-- C80, exactly: a datagram on the wire is rejected by a receiver that uses the library iff it is the announcement
of a node or controller whose style is not declared. -/
theorem C80_exact {P : Params} {s : Sys} (h : Reach P s) : ∀ p ∈ s.wire,
    decode (trunc p) = none ↔ 7 ≤ P.config.type ∧ p = ⟨P.broadcast, pollReplyImage (announced P.config)⟩ := by
  intro p hp
  obtain ⟨as, h⟩ := h
  have hlen : (pollReplyImage (announced P.config)).length = 239 := by
    rw [← ArtPollReply.image_eq]
    exact binaryWrite_length _
  constructor
  · intro hd
    by_cases hst : P.config.type < 7
    · obtain ⟨q, hq, _⟩ := C80_partial hst h p hp
      rw [hd] at hq
      cases hq
    · refine ⟨UInt8.not_lt.mp hst, ?_⟩
      rcases C76_wire h p hp with h1 | ⟨hc, h1⟩ | ⟨e, h1, he, _⟩
      · exact h1
      · have hrt := ArtPoll.roundtrip { ArtPoll.new with
          talkToMe := TalkToMe.withReplyOnChange 0 true
          priority := PriorityCode.dpAll }
        rw [decode_of (by rw [h1]; exact hrt) (by rw [h1]; show pollBytes.length ≤ 4096; decide)] at hd
        cases hd
      · obtain ⟨y, h2, _⟩ := dmx_understood he
        rw [decode_of (by rw [h1]; exact h2) (by rw [h1]; show e.data.length ≤ 4096; rw [he.1]; decide)] at hd
        cases hd
  · rintro ⟨hst, rfl⟩
    cases hd : decode (trunc ⟨P.broadcast, pollReplyImage (announced P.config)⟩) with
    | none => rfl
    | some q =>
      exfalso
      simp only [decode, trunc] at hd
      rw [List.take_of_length_le (by rw [hlen]; decide), ← ArtPollReply.image_eq] at hd
      obtain ⟨g1, g2, _, g4, _⟩ := ArtPollReply.write_facts (announced P.config)
      have hl : (binaryWrite (announced P.config).finish).length = 239 := binaryWrite_length _
      have hh := (headerOK_iff _).mpr ⟨by rw [hl]; omega, g1⟩
      split at hd
      · rename_i q' hq
        have := ((C14_pollreply_acceptance _ hh.2.1 g2).mp ⟨_, hq⟩).2.2
        rw [g4] at this
        exact absurd hst (UInt8.not_le.mpr this)
      · cases hd

/-- A controller that has discovered a node has written its ArtPoll and DMX. -/
example : sampleController.config.type < 7 ∧
    after sampleController (sampleDiscover ++ [.call fullOn ⟨0, 1⟩, .run 7 .next] ++ sampleTick [⟨0, 1⟩] ++
        [.run 2 .next, .run 2 .next, .run 2 .next, .run 2 .next, .run 2 .next, .run 2 .next, .run 2 .next])
      (fun s => s.wire.length == 2 && s.wire.all fun p => (decode (trunc p)).isSome) = true := by
  constructor
  · decide
  · decide +kernel

/-! ### C81 -/

/-- A tick at `now` sends a datagram to port 6454 of `ip` that a receiver that uses the library decodes as ArtDMX
for universe `a` with the channels `d`. -/
def Lights (c : Ctrl) (ip : Bytes) (a : Address) (d : Arr 512) (order : List Address) (now : Int) : Prop :=
  ∃ e ∈ (c.tickOver order now).2, e.address = ⟨ip, 6454⟩ ∧
    ∃ x : ArtDMX, unmarshal e.data = .ok (some (.dmx x), none) ∧ (⟨x.net, x.subUni⟩ : Address) = a ∧ x.data = d

/-- The node with configuration `cfg` sends an announcement that a controller decodes as `q`. -/
def Announces (cfg : NodeConfig) (q : ArtPollReply) : Prop :=
  ∃ p, artPollReplyFromConfig cfg = .ok p ∧ unmarshal (p.marshalBinary).2.1 = .ok (some (.pollReply q), none)

/-- C81 as stated: a node with a valid configuration announces itself, the controller (in any state) handles the
announcement at `t` and a tick at `t1`; data sent for the universe of an output port of the node is then in a
datagram to the node at the next tick, if earlier ticks are more than `m` nanoseconds ago. -/
def C81_statement : Prop := ∀ (m : Int) (os : List Op) (cfg : NodeConfig) (q : ArtPollReply) (o : OutputPort)
    (t t1 t2 : Int) (o1 o2 : List Address) (d : Arr 512),
  ValidConfig cfg → cfg.type ≤ 1 → cfg.ip.length = 4 → o ∈ cfg.outputPorts → Announces cfg q →
  (Ctrl.init m).CanRun (os ++ [.reply q t, .tick o1 t1, .send d o.address, .tick o2 t2]) →
  0 < t2 - m → (∀ u ∈ t1 :: tickTimes os, u < t2 - m) →
  Lights ((Ctrl.init m).run (os ++ [.reply q t, .tick o1 t1, .send d o.address])).1 cfg.ip o.address d o2 t2

theorem announces_iff (cfg : NodeConfig) (hs : cfg.type < 7) (q : ArtPollReply) :
    Announces cfg q ↔ q = { announced cfg with id := artNet, opCode := OpCode.opPollReply, port := 6454 } := by
  have hrt := ArtPollReply.roundtrip (announced cfg) (Or.inl rfl) hs
  have hm : (announced cfg).marshalBinary = ((announced cfg).finish, binaryWrite (announced cfg).finish, none) :=
    rfl
  constructor
  · rintro ⟨p, h1, h2⟩
    rw [artPollReplyFromConfig_eq] at h1
    have h1 := Except.ok.inj h1
    subst h1
    rw [hm, hrt] at h2
    exact (AnyPacket.pollReply.inj (Option.some.inj (Prod.mk.inj (Except.ok.inj h2)).1)).symm
  · rintro rfl
    exact ⟨_, artPollReplyFromConfig_eq cfg, by rw [hm]; exact hrt⟩

/-- C81 as far as it holds: for the ports at the base address of the node. (All ports are announced there, see
C35.) -/
theorem C81_partial (m : Int) (os : List Op) (cfg : NodeConfig) (q : ArtPollReply) (o : OutputPort)
    (t t1 t2 : Int) (o1 o2 : List Address) (d : Arr 512)
    (hv : ValidConfig cfg) (hst : cfg.type ≤ 1) (hip : cfg.ip.length = 4) (ho : o ∈ cfg.outputPorts)
    (hq : Announces cfg q) (hbase : o.address = cfg.baseAddress)
    (h : (Ctrl.init m).CanRun (os ++ [.reply q t, .tick o1 t1, .send d o.address, .tick o2 t2]))
    (h0 : 0 < t2 - m) (hlate : ∀ u ∈ t1 :: tickTimes os, u < t2 - m) :
    Lights ((Ctrl.init m).run (os ++ [.reply q t, .tick o1 t1, .send d o.address])).1 cfg.ip o.address d o2 t2 := by
  have hs7 : cfg.type < 7 := Nat.lt_of_le_of_lt hst (by decide)
  have hcfg : configFromArtPollReply q = rediscovered cfg := by rw [(announces_iff cfg hs7 q).mp hq]; rfl
  obtain ⟨dd, hdd, hid, _⟩ := C34_partial cfg hv hs7
  have hdd := (discovers_iff cfg dd hs7).mp hdd
  subst hdd
  obtain ⟨_, _, _, hty, _, _, _, _, hipd, _⟩ := hid
  have hports := (rediscovered_ports cfg hv.1 hv.2.1).2
  have hne : cfg.outputPorts ≠ [] := by intro h; rw [h] at ho; cases ho
  have hin : o.address ∈ (configFromArtPollReply q).outputs := by
    rw [hcfg, NodeConfig.outputs, hports, hbase]
    have hl : 0 < cfg.outputPorts.length := List.length_pos_iff.mpr hne
    exact List.mem_map.mpr ⟨_, List.mem_map.mpr ⟨0, List.mem_range.mpr hl, rfl⟩, rfl⟩
  have htr : Tracked q := by
    unfold Tracked
    rw [hcfg, hty]
    have : cfg.type = 0 ∨ cfg.type = 1 := by
      rcases Nat.lt_or_ge cfg.type.toNat 1 with h | h
      · left; apply UInt8.toNat_inj.mp; show cfg.type.toNat = 0; omega
      · right; apply UInt8.toNat_inj.mp; show cfg.type.toNat = 1
        have : cfg.type.toNat ≤ 1 := hst
        omega
    rcases this with h | h
    · exact .inl h
    · refine .inr ⟨h, ?_⟩
      intro h
      rw [NodeConfig.outputs, hcfg, h] at hin
      cases hin
  have hrun := h
  rw [canRun_append] at h
  obtain ⟨hos, hc1, hc2, hc3, hc4, _⟩ := h
  have hi0 := (inv_init m).run os hos
  have hst0 := stamped_init m os hos
  rw [(run_append _ _ _).1]
  have hmax : ((Ctrl.init m).run os).1.maxFPS = m := by
    exact (run_maxFPS (inv_init m) os hos).trans rfl
  generalize ((Ctrl.init m).run os).1 = c0 at *
  obtain ⟨r, hr1, hr2, _, hr4, _⟩ := reply_entry hi0 q t htr
  have hi1 := hi0.step (.reply q t) hc1
  have hst1 := stamped_step hi0 hst0 hc1
  have hrout : (c0.step (.reply q t)).1.output.get o.address = some r := hr4 _ hin
  have hudp : ((c0.step (.reply q t)).1.heap r).udpAddress = ⟨cfg.ip, 6454⟩ := by
    have := hi1.udp r hr1
    rw [this]
    show UDPAddr.mk ((c0.pollReply q t).heap r).node.ip 6454 = _
    rw [hr2, hcfg, hipd hip]
  clear hr2 hr4
  have hst0 := hst1
  have hmax1 : (c0.step (.reply q t)).1.maxFPS = m := (step_maxFPS hi0 _ hc1).trans hmax
  show Lights (((c0.step (.reply q t)).1.step (.tick o1 t1)).1.sendDMX d o.address) _ _ _ _ _
  have hrun2 : (((c0.step (.reply q t)).1.step (.tick o1 t1)).1.step (.send d o.address)).1 =
    ((c0.step (.reply q t)).1.step (.tick o1 t1)).1.sendDMX d o.address := rfl
  generalize (c0.step (.reply q t)).1 = c1 at *
  have hi2 := hi1.step _ hc2
  have hst2 := stamped_step hi1 hst1 hc2
  have tk := tick_spec hi1 (now := t1) hc2
  have hmax2 : (c1.step (.tick o1 t1)).1.maxFPS = m := (step_maxFPS hi1 _ hc2).trans hmax1
  have hbuf : ∃ b, ((c1.step (.tick o1 t1)).1.heap r).dmxBuffer.get o.address = some b := by
    have hb := tk.buffer r o.address
    have hm : o.address ∈ o1 := by
      have hp : o1.Perm c1.output.keys := hc2
      exact hp.mem_iff.mpr ((GoMap.mem_keys_iff _ _).mpr (by rw [hrout]; simp))
    rw [if_pos ⟨hm, hrout⟩] at hb
    exact ⟨_, hb⟩
  have hrout2 : (c1.step (.tick o1 t1)).1.output.get o.address = some r := by rw [tk.output]; exact hrout
  have hudp2 : ((c1.step (.tick o1 t1)).1.heap r).udpAddress = ⟨cfg.ip, 6454⟩ := (tk.udp r).trans hudp
  have hi3 := hi2.step _ hc3
  have hcan4 := hc4
  generalize (c1.step (.tick o1 t1)).1 = c2 at *
  obtain ⟨b, hb⟩ := hbuf
  obtain ⟨_, _, f3, _, f5, f6, _, f8⟩ := sendDMX_frame c2 d o.address
  have hb3 : ((c2.sendDMX d o.address).heap r).dmxBuffer.get o.address = some { b with data := d, stale := true } := by
    rw [f8, if_pos ⟨hrout2, rfl⟩, hb]; rfl
  have hlb : b.lastUpdate < t2 - m := by
    rcases hst2 r _ b hb with hz | hz
    · omega
    · simp only [tickTimes_append, tickTimes, List.append_nil, List.mem_append, List.mem_singleton] at hz
      rcases hz with hz | hz
      · exact hlate _ (List.mem_cons_of_mem _ hz)
      · exact hlate _ (by rw [hz]; exact List.mem_cons_self)
  obtain ⟨e, he, hd, ha, _, hadr, hch⟩ := C48_pending_is_sent (c2.sendDMX d o.address) hi3.wfOut o2 hc4 t2 o.address r
    (by show (c2.sendDMX d o.address).output.get _ = _; rw [f3]; exact hrout2) _ hb3 rfl (by rw [f5, hmax2]; exact hlb)
  obtain ⟨x, hx1, hx2, _, _, hx5⟩ := dmx_understood hd
  refine ⟨e, he, ?_, x, hx1, hx2.trans ha, Arr.ext (hx5.trans hch)⟩
  rw [hadr, (f6 r).2.2.1, hudp2]

/-- The announcement of `cfg` as a controller decodes it. -/
def asReceived (cfg : NodeConfig) : ArtPollReply :=
  { announced cfg with id := artNet, opCode := OpCode.opPollReply, port := 6454 }

/-- The port of `cfg1` at universe 0:0.8, announced at the base address 1:0.2, is never reached. -/
theorem C81_false : ¬ C81_statement := by
  intro h
  have hq := (announces_iff cfg1 (by decide) _).mpr rfl
  have := h 40 [] cfg1 _ ⟨⟨0, 8⟩, 5, 0⟩ 0 second (2 * second) [⟨1, 2⟩] [⟨1, 2⟩] fullOn cfg1_valid (by decide) rfl
    (by decide) hq ⟨trivial, List.isPerm_iff.mp (by decide +kernel), trivial, List.isPerm_iff.mp (by decide +kernel),
      trivial⟩ (by decide) (by decide)
  obtain ⟨e, he, _, x, hx, ha, _⟩ := this
  have hn : ((((Ctrl.init 40).run ([] ++ [.reply (asReceived cfg1) 0, .tick [⟨1, 2⟩] second, .send fullOn ⟨0, 8⟩])).1.tickOver [⟨1, 2⟩] (2 * second)).2.all
        fun e => emAddress e != ⟨0, 8⟩ && decide (IsDMX e)) = true := by decide +kernel
  have := List.all_eq_true.mp hn e he
  simp only [Bool.and_eq_true, bne_iff_ne, decide_eq_true_eq] at this
  obtain ⟨y, hy, hya, _⟩ := dmx_understood this.2
  rw [hx] at hy
  cases hy
  exact this.1 (hya.symm.trans ha)

/-- C81, exactly: the light is reached if and only if the port is at the base address of the node. -/
theorem C81_exact (m : Int) (os : List Op) (cfg : NodeConfig) (q : ArtPollReply) (o : OutputPort)
    (t t1 t2 : Int) (o1 o2 : List Address) (d : Arr 512)
    (hv : ValidConfig cfg) (hst : cfg.type ≤ 1) (hip : cfg.ip.length = 4) (ho : o ∈ cfg.outputPorts)
    (hq : Announces cfg q)
    (h : (Ctrl.init m).CanRun (os ++ [.reply q t, .tick o1 t1, .send d o.address, .tick o2 t2]))
    (h0 : 0 < t2 - m) (hlate : ∀ u ∈ t1 :: tickTimes os, u < t2 - m) :
    Lights ((Ctrl.init m).run (os ++ [.reply q t, .tick o1 t1, .send d o.address])).1 cfg.ip o.address d o2 t2 ↔
      o.address = cfg.baseAddress := by
  refine ⟨fun hl => ?_, fun hb => C81_partial m os cfg q o t t1 t2 o1 o2 d hv hst hip ho hq hb h h0 hlate⟩
  have hs7 : cfg.type < 7 := Nat.lt_of_le_of_lt hst (by decide)
  have hcfg : configFromArtPollReply q = rediscovered cfg := by rw [(announces_iff cfg hs7 q).mp hq]; rfl
  obtain ⟨dd, hdd, hid, _⟩ := C34_partial cfg hv hs7
  have hdd := (discovers_iff cfg dd hs7).mp hdd
  subst hdd
  obtain ⟨_, _, _, hty, _, _, _, _, hipd, _⟩ := hid
  have hports := (rediscovered_ports cfg hv.1 hv.2.1).2
  have hbase : ∀ a ∈ (configFromArtPollReply q).outputs, a = cfg.baseAddress := by
    intro a ha
    rw [hcfg, NodeConfig.outputs, hports] at ha
    simp only [List.map_map, List.mem_map] at ha
    obtain ⟨_, _, rfl⟩ := ha
    rfl
  have hne : cfg.outputPorts ≠ [] := by intro h; rw [h] at ho; cases ho
  have htr : Tracked q := by
    unfold Tracked
    rw [hcfg, hty]
    have : cfg.type = 0 ∨ cfg.type = 1 := by
      rcases Nat.lt_or_ge cfg.type.toNat 1 with h | h
      · left; apply UInt8.toNat_inj.mp; show cfg.type.toNat = 0; omega
      · right; apply UInt8.toNat_inj.mp; show cfg.type.toNat = 1
        have : cfg.type.toNat ≤ 1 := hst
        omega
    rcases this with h | h
    · exact .inl h
    · refine .inr ⟨h, ?_⟩
      intro h
      rw [hports] at h
      have hl : 0 < cfg.outputPorts.length := List.length_pos_iff.mpr hne
      simp only [List.map_eq_nil_iff, List.range_eq_nil] at h
      omega
  rw [canRun_append] at h
  obtain ⟨hos, hc1, hc2, hc3, hc4, _⟩ := h
  have hi0 := (inv_init m).run os hos
  rw [(run_append _ _ _).1] at hl
  generalize ((Ctrl.init m).run os).1 = c0 at *
  obtain ⟨r, hr1, hr2, _⟩ := reply_entry hi0 q t htr
  have hi1 := hi0.step (.reply q t) hc1
  have hi2 := hi1.step _ hc2
  have hi3 := hi2.step _ hc3
  have tk := tick_spec hi1 (now := t1) hc2
  obtain ⟨_, f2, _, _, _, f6, _, _⟩ := sendDMX_frame ((c0.step (.reply q t)).1.step (.tick o1 t1)).1 d o.address
  have n3 : r ∈ ((((c0.step (.reply q t)).1.step (.tick o1 t1)).1.step (.send d o.address)).1).nodes := by
    show r ∈ ((((c0.step (.reply q t)).1.step (.tick o1 t1)).1.sendDMX d o.address)).nodes
    rw [f2]
    rw [tk.nodes]
    exact hr1
  have g3 : ((((c0.step (.reply q t)).1.step (.tick o1 t1)).1.step (.send d o.address)).1.heap r).node = configFromArtPollReply q := by
    show ((((c0.step (.reply q t)).1.step (.tick o1 t1)).1.sendDMX d o.address).heap r).node = _
    rw [(f6 r).2.1]
    rw [tk.node]
    exact hr2
  obtain ⟨e, he, hadr, x, hx, hxa, _⟩ := hl
  have he : e ∈ (((((c0.step (.reply q t)).1.step (.tick o1 t1)).1.step (.send d o.address)).1).tickOver o2 t2).2 := he
  generalize (((c0.step (.reply q t)).1.step (.tick o1 t1)).1.step (.send d o.address)).1 = c3 at *
  obtain ⟨e1, e2, e3, _⟩ := (tick_spec hi3 (now := t2) hc4).each e he
  obtain ⟨y, hy, hya, _⟩ := dmx_understood e1
  rw [hx] at hy
  cases hy
  obtain ⟨k1, k2⟩ := hi3.out _ _ e2
  have hu := hi3.udp e.ref k1
  rw [← e3, hadr] at hu
  have heq : e.ref = r := hi3.ips _ k1 _ n3 (by
    rw [g3, hcfg, hipd hip]
    exact (congrArg UDPAddr.ip hu).symm)
  rw [heq, g3] at k2
  rw [← hxa, hya]
  exact hbase _ k2

/-- The hypotheses hold for a node with a port at its base address. -/
example : ∃ q, Announces { cfg1 with baseAddress := ⟨0, 7⟩ } q ∧
    (Ctrl.init 40).CanRun ([] ++ [.reply q 0, .tick [⟨0, 7⟩] second, .send fullOn ⟨0, 7⟩, .tick [⟨0, 7⟩] (2 * second)]) :=
  ⟨_, (announces_iff _ (by decide) _).mpr rfl, trivial, List.isPerm_iff.mp (by decide +kernel), trivial,
    List.isPerm_iff.mp (by decide +kernel), trivial⟩

end Verif.Props
