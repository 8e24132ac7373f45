import Verif.Lemmas.Net
import Verif.Props.Interop
import Verif.Props.Receive
import Verif.Props.Send
/-
Networks in which every host runs the library (C99-C103).
-/
namespace Verif.Props
open Spec Packet Code Artnet Conc Net

/-- A host by itself. -/
theorem host_reach {N : Setting} {es : List Event} {n : State} (h : N.execs N.init es = some n) {j : Nat} {hj : Host}
    {s : Sys} (hh : N.hosts[j]? = some hj) (hs : n[j]? = some s) : Reach hj.params s := by
  obtain ⟨as, ha, _⟩ := (sound h).proj j hj s hh hs
  exact (Reach.init _).execs ha

theorem host_of {N : Setting} {es : List Event} {n : State} (h : N.execs N.init es = some n) {j : Nat} {s : Sys}
    (hs : n[j]? = some s) : ∃ hj, N.hosts[j]? = some hj := by
  have h1 := (List.getElem?_eq_some_iff.mp hs).1
  rw [(sound h).len] at h1
  exact ⟨_, List.getElem?_eq_getElem h1⟩

/-- The library writes short datagrams. -/
theorem wire_short {P : Params} {as : List Act} {s : Sys} (h : (Sys.init P).execs P as = some s) :
    ∀ p ∈ s.wire, p.data.length ≤ 4096 := by
  intro p hp
  rcases C76_wire h p hp with rfl | ⟨_, rfl⟩ | ⟨e, rfl, he, _⟩
  · have : (pollReplyImage (announced P.config)).length = 239 := by
      rw [← ArtPollReply.image_eq]
      exact binaryWrite_length _
    show (pollReplyImage (announced P.config)).length ≤ 4096
    omega
  · have : pollBytes.length = 14 := by decide +kernel
    show pollBytes.length ≤ 4096
    omega
  · have := he.1
    show e.data.length ≤ 4096
    omega

theorem trunc_data {x p : Payload} (h : x.data = p.data) (hl : p.data.length ≤ 4096) : decode (trunc x) = decode p := by
  simp only [decode, trunc, h, List.take_of_length_le hl]

/-- What a host has written decodes to the kind of packet that its header says. -/
theorem wire_kinds {P : Params} {as : List Act} {s : Sys} (h : (Sys.init P).execs P as = some s) {p : Payload}
    (hp : p ∈ s.wire) :
    (∀ q, decode p = some (.pollReply q) → Discovers P.config (configFromArtPollReply q)) ∧
    (∀ x : ArtDMX, decode p = some (.dmx x) → P.controller = true ∧ ∃ e : Emission, p = ⟨e.address, e.data⟩ ∧ IsDMX e ∧
      (⟨x.net, x.subUni⟩ : Address) = emAddress e ∧ x.data.val = emChannels e ∧
      (∃ y ∈ s.arrived, fromOther P y = true ∧ ∃ q, decode (trunc y) = some (.pollReply q) ∧ Tracked q ∧
        e.address = ⟨q.ipAddress.val, 6454⟩ ∧ emAddress e ∈ (configFromArtPollReply q).outputs) ∧
      (emChannels e = List.replicate 512 0 ∨ ∃ d, .call d (emAddress e) ∈ as ∧ emChannels e = d.val)) := by
  have kind : ∀ q, decode p = some q → unmarshal p.data = .ok (some q, none) := by
    intro q hq
    unfold decode at hq
    split at hq
    · cases hq; assumption
    · cases hq
  rcases C76_wire h p hp with rfl | ⟨_, rfl⟩ | ⟨e, rfl, he, hy, hd⟩
  · refine ⟨fun q hq => ⟨announced P.config, q, artPollReplyFromConfig_eq _, ?_, rfl⟩, fun x hx => ?_⟩
    · have := kind _ hq
      rw [← ArtPollReply.image_eq] at this
      exact this
    · have h1 := (C06_dispatch_fidelity _ _ (kind _ hx)).1
      have h2 := image_is_reply P.broadcast (announced P.config)
      simp only [isReply, Bool.and_eq_true, beq_iff_eq] at h2
      simp only [opcodeFor, opOf, le16At] at h1
      rw [h2.1, h2.2] at h1
      exact absurd h1 (by decide)
  · refine ⟨fun q hq => ?_, fun x hx => ?_⟩
    · have h1 := (C06_dispatch_fidelity _ _ (kind _ hq)).1
      exact absurd (show (0x2100 : UInt16) = opOf pollBytes from h1) (by decide +kernel)
    · have h1 := (C06_dispatch_fidelity _ _ (kind _ hx)).1
      exact absurd (show (0x5000 : UInt16) = opOf pollBytes from h1) (by decide +kernel)
  · obtain ⟨x', h1, h2, _, _, h5⟩ := dmx_understood he
    refine ⟨fun q hq => ?_, fun x hx => ?_⟩
    · have := kind _ hq
      rw [h1] at this
      cases this
    · have := kind _ hx
      rw [h1] at this
      cases this
      refine ⟨?_, e, rfl, he, h2, h5, hy, hd⟩
      cases hcc : P.controller with
      | true => rfl
      | false =>
        cases wire_sent ⟨as, h⟩ _ hp with
        | poll hc => rw [hcc] at hc; cases hc
        | dmx e' he' => rw [no_emissions ⟨as, h⟩ hcc] at he'; cases he'
        | reply me hm hp =>
          rw [me_eq] at hm
          rw [← Except.ok.inj hm] at hp
          have hl : e.data.length = (pollReplyImage (announced P.config)).length :=
            congrArg (fun x : Payload => x.data.length) hp
          have : (pollReplyImage (announced P.config)).length = 239 := by
            rw [← ArtPollReply.image_eq]
            exact binaryWrite_length _
          rw [he.1, this] at hl
          omega

/-- A host that has written something has a valid configuration. -/
theorem wire_valid {P : Params} {s : Sys} (h : Reach P s) (hw : s.wire ≠ []) : ValidConfig P.config := by
  have key : s.chans ≠ [] → P.config.validate = .ok none := by
    refine Reach.induct (P := P) (I := fun s => s.chans ≠ [] → P.config.validate = .ok none) (fun h => absurd rfl h) ?_ h
    intro s s' _ ih _ hst
    cases hst with
    | start _ hv => exact fun _ => hv
    | startPanic | startFail =>
      simp only [Sys.reset, Sys.panic, Sys.resetTables]
      split <;> exact ih
    | popPoll ht hg | popSend ht hg | popRecv ht hg | popReply ht hg | pushSend ht _ hg | pushDmx ht hg | pushRecv ht hg
    | pushPoll ht hg | pushOwn ht hg | pushReply ht hg | close _ _ hg =>
      intro _
      exact ih fun h0 => by rw [h0] at hg; cases hg
    | _ => exact ih
  have hc : s.chans ≠ [] := by
    intro h0
    cases hl : s.wire with
    | nil => exact hw hl
    | cons p l =>
      have := C64_written h p
      rw [h0, hl] at this
      simp at this
  obtain ⟨r, hr, hv⟩ := C32_validate P.config
  rw [key hc] at hr
  exact hv.mp (Except.ok.inj hr).symm

/-- A node with address 2.0.0.2 and an output port with universe 1. -/
def sampleDimmer : Params := Params.ofNode
  { newNode [0x6e] StyleCode.stNode [2, 0, 0, 2] [] with
    config := { (newNode [0x6e] StyleCode.stNode [2, 0, 0, 2] []).config with
      baseAddress := ⟨0, 1⟩, outputPorts := [⟨⟨0, 1⟩, 5, 0⟩] } }

/-- The controller 2.0.0.1 and the node 2.0.0.2 in a network in which broadcasts reach everyone. -/
def sampleNet : Setting where
  hosts := [⟨sampleController, ⟨[2, 0, 0, 1], 6454⟩⟩, ⟨sampleDimmer, ⟨[2, 0, 0, 2], 6454⟩⟩]
  reaches := fun _ a j => a.ip == [2, 255, 255, 255] || (j == 0 && a.ip == [2, 0, 0, 1]) || (j == 1 && a.ip == [2, 0, 0, 2])

/-- Goroutine `i` of host `j` runs. -/
def steps (j i n : Nat) : List Event := List.replicate n (.act j (.run i .next))

/-- Goroutine `i` of host `j` reads datagram `m` of host `k`, and recvLoop hands it to handlePacket. -/
def sampleDeliver (k m j i : Nat) : List Event :=
  steps j i 1 ++ [.deliver k m j i] ++ steps j i 3 ++ steps j 1 3

/-- Both hosts start, the controller polls and finds the node, `fullOn` is sent to universe 1, and the call-back for DMX of
the node runs. -/
def sampleShow : List Event :=
  [.act 1 (.register OpCode.opDMX (.user 7)), .act 0 .start, .act 0 (.listen true), .act 1 .start, .act 1 (.listen true)] ++
  steps 0 0 1 ++ steps 0 1 1 ++ steps 0 2 1 ++ steps 1 0 1 ++ steps 1 1 1 ++ steps 1 2 1 ++
  steps 0 3 3 ++ steps 0 2 3 ++
  sampleDeliver 0 0 1 3 ++ steps 1 4 3 ++ steps 1 0 4 ++ steps 1 2 3 ++
  sampleDeliver 1 0 0 5 ++ steps 0 6 3 ++ steps 0 3 3 ++ [.act 0 (.run 3 (.at 0))] ++
  [.act 0 (.call fullOn ⟨0, 1⟩), .act 0 (.run 7 .next)] ++ (sampleTick [⟨0, 1⟩]).map (.act 0) ++ steps 0 2 4 ++
  sampleDeliver 0 1 1 3 ++ steps 1 5 1

/-- Whether a condition holds after the events. -/
def afterNet (N : Setting) (es : List Event) (f : State → Bool) : Bool := (N.execs N.init es).any f

/-! ### C99 -/

/-- C99: in a network of hosts that run the library, every packet for which a call-back is called is one that another
host has written, unchanged, to a destination from which it reaches this host. -/
theorem C99_sent_by_a_host {N : Setting} {es : List Event} {n : State} (h : N.execs N.init es = some n) {j : Nat}
    {hj : Host} {s : Sys} (hh : N.hosts[j]? = some hj) (hs : n[j]? = some s) : ∀ c ∈ s.calls,
    ∃ (k : Nat) (hk : Host) (t : Sys), N.hosts[k]? = some hk ∧ n[k]? = some t ∧
      ∃ p ∈ t.wire, decode p = some c.2 ∧ N.reaches k p.address j = true ∧
        ¬ SameAddress hj.params.localIP hk.addr.ip := by
  intro c hc
  obtain ⟨x, hx, hn, hd⟩ := C61_own_ignored (host_reach h hh hs) c hc
  obtain ⟨k, hk, t, h1, h2, p, h3, rfl, h5⟩ := (sound h).sent j s hs x hx
  obtain ⟨as, ha, _⟩ := (sound h).proj k hk t h1 h2
  exact ⟨k, hk, t, h1, h2, p, h3, (trunc_data rfl (wire_short ha p h3)).symm.trans hd, h5, hn⟩

/-- The node is called back for the ArtPoll and for the DMX packet of the controller. -/
example : afterNet sampleNet sampleShow (fun n => n[1]?.any fun s => s.calls.map (opcodeFor ·.2) == [0x2000, 0x5000]) =
    true := by
  decide +kernel

/-! ### C100 -/

/-- C100: if every host has a declared style, no host ever discards a datagram because it does not decode. -/
theorem C100_understood {N : Setting} {es : List Event} {n : State} (h : N.execs N.init es = some n)
    (hst : ∀ x ∈ N.hosts, x.params.config.type < 7) : ∀ s ∈ n, s.rejected = [] := by
  intro s hs
  obtain ⟨j, hs⟩ := List.getElem?_of_mem hs
  obtain ⟨hj, hh⟩ := host_of h hs
  have hr := host_reach h hh hs
  apply List.eq_nil_iff_forall_not_mem.mpr
  intro p hp
  have h1 := (C60_undecodable hr).mem_iff (a := p)
  simp only [List.mem_filter, List.mem_append, hp, or_true, iff_true] at h1
  have h2 := (C60_arrived hr).mem_iff (a := p)
  simp only [List.mem_append, h1.1, true_or, iff_true] at h2
  obtain ⟨y, hy, hyp⟩ := List.mem_map.mp h2
  obtain ⟨k, hk, t, g1, g2, q, g3, rfl, _⟩ := (sound h).sent j s hs y (List.mem_filter.mp hy).1
  obtain ⟨as, ha, _⟩ := (sound h).proj k hk t g1 g2
  obtain ⟨z, hz, _⟩ := C80_partial (hst hk (List.mem_of_getElem? g1)) ha q g3
  have h3 := h1.2
  rw [← hyp] at h3
  have : decode (trunc (⟨hk.addr, q.data⟩ : Payload)) = decode (trunc q) := rfl
  simp only [decode, trunc] at h3 hz
  rw [hz] at h3
  cases h3

example : (∀ x ∈ sampleNet.hosts, x.params.config.type < 7) ∧
    afterNet sampleNet sampleShow (fun n => n.all fun s => s.rejected.isEmpty && !s.arrived.isEmpty) = true := by
  constructor
  · decide
  · decide +kernel

/-! ### C101 -/

/-- Where a packet with an announcement comes from. -/
theorem announcement_from {N : Setting} {es : List Event} {n : State} (h : N.execs N.init es = some n) {k : Nat} {t : Sys}
    (ht : n[k]? = some t) {y : Payload} (hy : y ∈ t.arrived) {q : ArtPollReply} (hq : decode (trunc y) = some (.pollReply q)) :
    ∃ (l : Nat) (hl : Host), N.hosts[l]? = some hl ∧ y.address = hl.addr ∧ ValidConfig hl.params.config ∧
      Discovers hl.params.config (configFromArtPollReply q) := by
  obtain ⟨l, hl, u, g1, g2, p, g3, rfl, _⟩ := (sound h).sent k t ht y hy
  obtain ⟨as, ha, _⟩ := (sound h).proj l hl u g1 g2
  refine ⟨l, hl, g1, rfl, wire_valid (host_reach h g1 g2) (List.ne_nil_of_mem g3), (wire_kinds ha g3).1 q ?_⟩
  rw [← hq]
  exact (trunc_data rfl (wire_short ha p g3)).symm

/-- The universes that are discovered for a valid configuration. -/
theorem discovered_universe {c d : NodeConfig} (hv : ValidConfig c) (h : Discovers c d) {a : Address} (ha : a ∈ d.outputs) :
    c.outputPorts ≠ [] ∧ a = c.baseAddress := by
  obtain ⟨_, h2, _, h4⟩ := C35_partial c d hv h
  obtain ⟨b, hb, rfl⟩ := List.mem_map.mp ha
  obtain ⟨i, hi⟩ := List.getElem?_of_mem hb
  have hlt := (List.getElem?_eq_some_iff.mp hi).1
  rw [h2] at hlt
  refine ⟨fun h0 => by rw [h0] at hlt; simp at hlt, ?_⟩
  obtain ⟨b', hb', hadr, _⟩ := h4 i _ (List.getElem?_eq_getElem hlt)
  rw [hi] at hb'
  rw [Option.some.inj hb', hadr]

/-- C101: a DMX packet for which a call-back is called comes from a controller. Its data is zero or was passed to
SendDMXToAddress on that controller for that universe. It was sent to the address that another host has announced, which
has an output port and whose base address is that universe. -/
theorem C101_light {N : Setting} {es : List Event} {n : State} (h : N.execs N.init es = some n) {j : Nat}
    {s : Sys} (hs : n[j]? = some s) {f : Handler} {x : ArtDMX} (hc : (f, .dmx x) ∈ s.calls) :
    ∃ (k : Nat) (hk : Host), N.hosts[k]? = some hk ∧ hk.params.controller = true ∧
      (x.data = Arr.zero 512 ∨ .act k (.call x.data ⟨x.net, x.subUni⟩) ∈ es) ∧
      ∃ (l : Nat) (hl : Host) (d : NodeConfig), N.hosts[l]? = some hl ∧ Discovers hl.params.config d ∧
        hl.params.config.outputPorts ≠ [] ∧ (⟨x.net, x.subUni⟩ : Address) = hl.params.config.baseAddress ∧
        N.reaches k ⟨d.ip, 6454⟩ j = true ∧ ¬ SameAddress hk.params.localIP hl.addr.ip := by
  obtain ⟨hj, hh⟩ := host_of h hs
  obtain ⟨k, hk, t, g1, g2, p, g3, g4, g5, _⟩ := C99_sent_by_a_host h hh hs _ hc
  obtain ⟨as, ha, hcalls⟩ := (sound h).proj k hk t g1 g2
  obtain ⟨hcon, e, rfl, he, e1, e2, ⟨y, hy, hyo, q, hq, _, e3, e4⟩, e5⟩ := (wire_kinds ha g3).2 x g4
  obtain ⟨l, hl, l1, l2, l3, l4⟩ := announcement_from h g2 hy hq
  obtain ⟨u1, u2⟩ := discovered_universe l3 l4 e4
  refine ⟨k, hk, g1, hcon, ?_, l, hl, _, l1, l4, u1, e1.trans u2, ?_, ?_⟩
  · rcases e5 with e5 | ⟨d, e5, e6⟩
    · left
      apply Arr.ext
      rw [e2, e5]
      rfl
    · right
      have : x.data = d := by apply Arr.ext; rw [e2, e6]
      rw [this, e1]
      exact hcalls _ _ e5
  · have : (configFromArtPollReply q).ip = q.ipAddress.val := by rw [configFromArtPollReply_eq]
    rw [this, ← e3]
    exact g5
  · rw [← l2, ← C61_comparison]
    intro hc
    simp only [fromOther, hc] at hyo
    cases hyo

/-- C101: if what is sent to an announced address reaches only the host that announces it, a host gets DMX for its own
base address only, and only if it has an output port. -/
theorem C101_own_universe {N : Setting} {es : List Event} {n : State} (h : N.execs N.init es = some n)
    (huni : ∀ (k l j : Nat) (hl : Host) (d : NodeConfig), N.hosts[l]? = some hl → Discovers hl.params.config d →
      N.reaches k ⟨d.ip, 6454⟩ j = true → j = l)
    {j : Nat} {hj : Host} {s : Sys} (hh : N.hosts[j]? = some hj) (hs : n[j]? = some s) {f : Handler} {x : ArtDMX}
    (hc : (f, .dmx x) ∈ s.calls) :
    (⟨x.net, x.subUni⟩ : Address) = hj.params.config.baseAddress ∧ hj.params.config.outputPorts ≠ [] := by
  obtain ⟨k, hk, _, _, _, l, hl, d, l1, l2, l3, l4, l5, _⟩ := C101_light h hs hc
  cases huni k l j hl d l1 l2 l5
  rw [l1] at hh
  cases hh
  exact ⟨l4, l3⟩

/-- The packet of the controller, with the data of the call, reaches the call-back of the node. -/
example : afterNet sampleNet sampleShow (fun n => n[1]?.any fun s => s.calls.any fun c =>
    match c with
    | (.user 7, .dmx x) => x.data == fullOn && (⟨x.net, x.subUni⟩ : Address) == ⟨0, 1⟩
    | _ => false) = true := by
  decide +kernel

/-- In `sampleNet` what is sent to an announced address reaches only the host that announces it. -/
example : ∀ (k l j : Nat) (hl : Host) (d : NodeConfig), sampleNet.hosts[l]? = some hl → Discovers hl.params.config d →
    sampleNet.reaches k ⟨d.ip, 6454⟩ j = true → j = l := by
  intro k l j hl d h1 h2 h3
  match l, h1 with
  | 0, h1 =>
    cases h1
    have : d = rediscovered sampleController.config := (discovers_iff _ _ (by decide)).mp h2
    rw [this] at h3
    have : (rediscovered sampleController.config).ip = [2, 0, 0, 1] := by decide +kernel
    rw [this] at h3
    simpa [sampleNet] using h3
  | 1, h1 =>
    cases h1
    have : d = rediscovered sampleDimmer.config := (discovers_iff _ _ (by decide)).mp h2
    rw [this] at h3
    have : (rediscovered sampleDimmer.config).ip = [2, 0, 0, 2] := by decide +kernel
    rw [this] at h3
    simpa [sampleNet] using h3
  | n + 2, h1 => simp [sampleNet] at h1

/-! ### C102 -/

/-- A reply that a controller has processed has arrived from another host. -/
theorem processed_arrived {P : Params} {s : Sys} (h : Reach P s) {q : ArtPollReply} {now : Int}
    (hq : Op.reply q now ∈ s.hist) : ∃ y ∈ s.arrived, fromOther P y = true ∧ decode (trunc y) = some (.pollReply q) := by
  have hcall := (replies_called h).2.2 q now hq
  have hmem : AnyPacket.pollReply q ∈ ((s.arrived.filter (fromOther P)).map trunc).filterMap decode := by
    have h3 := C60_no_duplicates h (.pollReply q)
    have h4 : 0 < (s.calls.map (·.2)).count (.pollReply q) :=
      List.count_pos_iff.mpr (List.mem_map.mpr ⟨_, hcall, rfl⟩)
    exact List.count_pos_iff.mp (by omega)
  obtain ⟨y, hy, hyd⟩ := List.mem_filterMap.mp hmem
  obtain ⟨x, hx, rfl⟩ := List.mem_map.mp hy
  obtain ⟨hx1, hx2⟩ := List.mem_filter.mp hx
  exact ⟨x, hx1, hx2, hyd⟩

/-- C102: whenever the lock is free, every node that a controller knows is the announced configuration of a host other
than itself, and it knows at most one node per host. -/
theorem C102_tables {N : Setting} {es : List Event} {n : State} (h : N.execs N.init es = some n) {k : Nat} {hk : Host}
    {s : Sys} (hh : N.hosts[k]? = some hk) (hs : n[k]? = some s) (hl : s.lock = false) :
    (∀ r ∈ s.ctrl.nodes, ∃ (l : Nat) (hl : Host), N.hosts[l]? = some hl ∧ ValidConfig hl.params.config ∧
      Discovers hl.params.config (s.ctrl.heap r).node ∧ ¬ SameAddress hk.params.localIP hl.addr.ip) ∧
    s.ctrl.nodes.length ≤ N.hosts.length := by
  have hr := host_reach h hh hs
  have key : ∀ r ∈ s.ctrl.nodes, ∃ (l : Nat) (hl : Host), N.hosts[l]? = some hl ∧ ValidConfig hl.params.config ∧
      Discovers hl.params.config (s.ctrl.heap r).node ∧ ¬ SameAddress hk.params.localIP hl.addr.ip := by
    intro r hrn
    obtain ⟨h1, _, h3⟩ := C73_linearizable hr
    have h3 := congrArg Prod.fst (h3 hl)
    have ha := (provenance_init hk.params.maxFPS s.hist h1).1
    rw [h3] at ha
    obtain ⟨q, now, g1, _, g3⟩ := ha r hrn
    obtain ⟨y, hy, hyo, hyq⟩ := processed_arrived hr g1
    obtain ⟨l, hl, l1, l2, l3, l4⟩ := announcement_from h hs hy hyq
    refine ⟨l, hl, l1, l3, by rw [g3]; exact l4, ?_⟩
    rw [← l2, ← C61_comparison]
    intro hc
    simp only [fromOther, hc] at hyo
    cases hyo
  refine ⟨key, ?_⟩
  have hn := (C73_tables hr hl).1
  have hsub : s.ctrl.nodes.map (ipOf s.ctrl) ⊆ N.hosts.map fun x => (rediscovered x.params.config).ip := by
    intro ip hip
    obtain ⟨r, hr, rfl⟩ := List.mem_map.mp hip
    obtain ⟨l, hl, l1, _, l3, _⟩ := key r hr
    refine List.mem_map.mpr ⟨hl, List.mem_of_getElem? l1, ?_⟩
    have hst : hl.params.config.type < 7 := by
      by_cases hs : hl.params.config.type < 7
      · exact hs
      · exact absurd l3 (C34_undeclared_style _ _ (UInt8.not_lt.mp hs))
    rw [← (discovers_iff _ _ hst).mp l3]
    rfl
  simpa using hn.length_le_of_subset hsub

/-- The controller knows the node. -/
example : afterNet sampleNet (sampleShow.take 52) (fun n => n[0]?.any fun s => !s.lock &&
    s.ctrl.nodes.map (ipOf s.ctrl) == [[2, 0, 0, 2]]) = true := by
  decide +kernel

/-! ### C103 -/

/-- The datagram is understood as an ArtPoll. -/
def pollDatagram (x : Payload) : Bool := (decode (trunc x)).any isPoll

theorem polls_arrived {N : Setting} {es : List Event} {n : State} (h : N.execs N.init es = some n) {j : Nat} {s : Sys}
    (hs : n[j]? = some s) (hd : (deliveries j es).Nodup) :
    s.arrived.countP pollDatagram ≤ (n.map fun t => t.wire.countP pollDatagram).sum := by
  obtain ⟨h1, h2⟩ := delivered h hs
  let Q : Nat × Nat → Bool := fun x => (sentBy N n x).any pollDatagram
  have e1 : s.arrived.countP pollDatagram = (s.arrived.map some).countP (·.any pollDatagram) := by
    rw [List.countP_map]; rfl
  have e2 : ((deliveries j es).map (sentBy N n)).countP (·.any pollDatagram) = (deliveries j es).countP Q := by
    rw [List.countP_map]; rfl
  have e3 := h1.countP_le (p := (·.any pollDatagram))
  rw [e1]
  refine Nat.le_trans e3 ?_
  rw [e2]
  let all : List (Nat × Nat) := n.zipIdx.flatMap fun x => x.1.wire.zipIdx.map fun y => (x.2, y.2)
  have e4 : (deliveries j es).countP Q ≤ all.countP Q := by
    rw [List.countP_eq_length_filter, List.countP_eq_length_filter]
    apply List.Nodup.length_le_of_subset (List.Pairwise.filter Q hd)
    intro x hx
    obtain ⟨hx, hq⟩ := List.mem_filter.mp hx
    refine List.mem_filter.mpr ⟨?_, hq⟩
    have := h2 x hx
    unfold sentBy at this
    split at this
    case h_2 => cases this
    rename_i hh t hhk htk
    rw [Option.isSome_map, Option.isSome_iff_exists] at this
    obtain ⟨p, hp⟩ := this
    refine List.mem_flatMap.mpr ⟨(t, x.1), by simpa [List.mem_zipIdx_iff_getElem?] using htk, ?_⟩
    exact List.mem_map.mpr ⟨(p, x.2), by simpa [List.mem_zipIdx_iff_getElem?] using hp, rfl⟩
  refine Nat.le_trans e4 (Nat.le_of_eq ?_)
  rw [List.countP_flatMap, ← sum_zipIdx (fun t : Sys => t.wire.countP pollDatagram) n 0]
  congr 1
  apply List.map_congr_left
  rintro ⟨t, k⟩ hk
  have hk : n[k]? = some t := by simpa [List.mem_zipIdx_iff_getElem?] using hk
  obtain ⟨hh, hhk⟩ := host_of h hk
  simp only [Function.comp_apply, List.countP_map]
  rw [← countP_zipIdx pollDatagram t.wire 0]
  apply List.countP_congr
  rintro ⟨p, m⟩ hm
  have hm : t.wire[m]? = some p := by simpa [List.mem_zipIdx_iff_getElem?] using hm
  simp only [Function.comp_apply, Q, sentBy, hhk, hk, hm, Option.map_some, Option.any_some]
  rfl

/-- C103: if no datagram is delivered twice to a host, it writes at most one ArtPollReply per ArtPoll that the hosts have
written, and one per poll of its own pollLoop to itself. -/
theorem C103_no_storm {N : Setting} {es : List Event} {n : State} (h : N.execs N.init es = some n) {j : Nat} {s : Sys}
    (hs : n[j]? = some s) (hd : (deliveries j es).Nodup) :
    s.wire.countP isReply ≤ (n.map fun t => t.wire.countP pollDatagram).sum + s.own := by
  obtain ⟨hj, hh⟩ := host_of h hs
  have hr := host_reach h hh hs
  have h1 := C62_written hr
  have h2 := C62_one_per_poll hr
  have h3 := C62_polls_received hr
  have h4 := polls_arrived h hs hd
  have h5 : (((s.arrived.filter (fromOther hj.params)).map trunc).filterMap decode).countP isPoll ≤
      s.arrived.countP pollDatagram := by
    rw [List.countP_filterMap, List.countP_map]
    refine Nat.le_trans List.filter_sublist.countP_le (Nat.le_of_eq (List.countP_congr fun x _ => ?_))
    simp only [Function.comp_apply, pollDatagram]
    cases decode (trunc x) <;> simp
  omega

/-- The node answers the ArtPoll of the controller, and no datagram is delivered twice. -/
example : (deliveries 1 sampleShow).Nodup ∧ afterNet sampleNet sampleShow (fun n =>
    n.map (fun s => (s.wire.countP isReply, s.wire.countP pollDatagram, s.own)) == [(0, 1, 1), (1, 0, 0)]) = true := by
  constructor
  · decide +kernel
  · decide +kernel

end Verif.Props
