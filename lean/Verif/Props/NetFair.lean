import Verif.Lemmas.NetPath
import Verif.Props.Follow
/-
What happens eventually in a network of hosts: C104 and C105.
-/
namespace Verif.Props
open Spec Packet Code Artnet Conc Net

/-- The reply of a host with a declared style is understood. -/
theorem answer_understood {P : Params} (hst : P.config.type < 7) (a : UDPAddr) :
    ∃ q, decode (trunc ⟨a, (Exec.answer P).data⟩) = some (.pollReply q) ∧ Discovers P.config (configFromArtPollReply q) := by
  have hlen : (pollReplyImage (announced P.config)).length = 239 := by
    rw [← ArtPollReply.image_eq]
    exact binaryWrite_length _
  have hrt := ArtPollReply.roundtrip (announced P.config) (Or.inl rfl) hst
  rw [ArtPollReply.image_eq] at hrt
  refine ⟨_, decode_of (p := ⟨a, (Exec.answer P).data⟩) hrt ?_, (discovers_iff _ _ hst).mpr rfl⟩
  show (pollReplyImage (announced P.config)).length ≤ 4096
  omega

/-- The ArtPoll of a controller is understood. -/
theorem poll_understood (P : Params) (a : UDPAddr) :
    ∃ q, decode (trunc ⟨a, (Exec.poll P).data⟩) = some (.poll q) := by
  have hrt := ArtPoll.roundtrip { ArtPoll.new with
    talkToMe := TalkToMe.withReplyOnChange 0 true
    priority := PriorityCode.dpAll }
  refine ⟨_, decode_of (p := ⟨a, (Exec.poll P).data⟩) hrt ?_⟩
  show pollBytes.length ≤ 4096
  decide

theorem from_other {P : Params} {a : UDPAddr} {d : Bytes} (h : ¬ SameAddress P.localIP a.ip) :
    fromOther P ⟨a, d⟩ = true := by
  rw [← C61_comparison] at h
  simpa [fromOther] using h

theorem tracked_style {c : NodeConfig} (h : c.type = StyleCode.stNode ∨ (c.type = StyleCode.stController ∧ c.outputPorts ≠ [])) :
    c.type < 7 := by
  rcases h with h | ⟨h, _⟩ <;> rw [h] <;> decide

/-- A controller that processes the announcement of a node knows it. -/
theorem knows_after {c : NodeConfig} (hv : ValidConfig c)
    (ht : c.type = StyleCode.stNode ∨ (c.type = StyleCode.stController ∧ c.outputPorts ≠ []))
    {q : ArtPollReply} (hq : Discovers c (configFromArtPollReply q)) :
    ignored q = false ∧ ∀ (x : Ctrl) (now : Int), ∃ r ∈ (x.pollReply q now).nodes,
      Discovers c ((x.pollReply q now).heap r).node ∧ (c.outputPorts ≠ [] → Routed (x.pollReply q now) c.baseAddress r) := by
  obtain ⟨d, hd, hid, huniq⟩ := C34_partial c hv (tracked_style ht)
  have hdq := huniq _ hq
  obtain ⟨_, h2, _, h4⟩ := C35_partial c _ hv hq
  have htype : (configFromArtPollReply q).type = c.type := by rw [hdq]; exact hid.2.2.2.1
  have hports : c.outputPorts ≠ [] → (configFromArtPollReply q).outputPorts ≠ [] := by
    intro h h0
    rw [h0] at h2
    exact h (List.length_eq_zero_iff.mp h2.symm)
  have hout : c.outputPorts ≠ [] → c.baseAddress ∈ (configFromArtPollReply q).outputs := by
    intro h
    obtain ⟨a, l, hl⟩ := List.exists_cons_of_ne_nil h
    obtain ⟨b, hb, hb', _⟩ := h4 0 a (by rw [hl]; rfl)
    exact List.mem_map.mpr ⟨b, List.mem_of_getElem? hb, hb'⟩
  have htr : Tracked q := by
    unfold Tracked
    rw [htype]
    exact ht.imp id fun h => ⟨h.1, hports h.2⟩
  constructor
  · simp only [ignored, htype, decide_eq_false_iff_not]
    rintro (⟨h5, h6⟩ | ⟨h5, h6⟩)
    · exact ht.elim h5 fun h => h6 h.1
    · rcases ht with h | ⟨_, h⟩
      · rw [h] at h5; cases h5
      · exact hports h (List.length_eq_zero_iff.mp h6)
  · intro x now
    rw [pollReply_eq, if_pos htr]
    rcases updateNode_cases x (configFromArtPollReply q) now with ⟨r, hk, e⟩ | ⟨_, e⟩
    · rw [e]
      refine ⟨r, (known_some hk).1, ?_, fun h => ?_⟩
      · simpa [updatedAt] using hq
      · show (setAll _ _ r).get _ = _
        rw [setAll_get, if_pos (hout h)]
    · rw [e]
      refine ⟨x.next, by simp [addedNode], ?_, fun h => ?_⟩
      · simpa [addedNode] using hq
      · show (setAll _ _ x.next).get _ = _
        rw [setAll_get, if_pos (hout h)]

section discovery
variable {N : Setting} (e : NetExec N) (hf : e.Fair) {k j : Nat} {hk hj : Host} (hm : e.Meet k j hk hj)
include hf hm

/-- A poll that is delivered is answered. -/
theorem poll_answered (hw : e.Writes) {n : Nat} (hd : e.delivers k (Exec.poll hk.params) j n) : ∃ m, n ≤ m ∧
    ((e.host hm.right).state n).wire.count (Exec.answer hj.params) + 1 ≤
      ((e.host hm.right).state m).wire.count (Exec.answer hj.params) := by
  obtain ⟨q, hq⟩ := poll_understood hk.params hk.addr
  exact (e.host hm.right).answers (e.host_fair hf hm.right) (e.host_writes hw hm.right)
    (hm.answers _ (e.at_host hm.right 0)) (e.arrives hm.left hm.right hd) (from_other hm.other) hq

/-- A reply that is delivered is processed. -/
theorem reply_known {n : Nat} (hd : e.delivers j (Exec.answer hj.params) k n) : ∃ m, n ≤ m ∧
    Knows ((e.host hm.left).state m) hj.params.config := by
  obtain ⟨q, hq, hD⟩ := answer_understood (tracked_style hm.tracked) hj.addr
  have hv : ValidConfig hj.params.config := by
    obtain ⟨m, i, t, _, h2, h3⟩ := hd
    have h4 := (e.host_state hm.right).mp h2
    refine wire_valid ((e.host hm.right).reach n).reach ?_
    rw [h4]
    intro h0
    rw [h0] at h3
    simp at h3
  obtain ⟨h1, h2⟩ := knows_after hv hm.tracked hD
  obtain ⟨m, now, g1, _, g3, g4⟩ := (e.host hm.left).processes hm.controller hm.style (e.host_fair hf hm.left)
    (hm.hears _ (e.at_host hm.left 0)) (e.arrives hm.right hm.left hd) (from_other hm.other') hq h1
  refine ⟨m + 1, by omega, g3, ?_⟩
  rw [g4]
  exact h2 _ now

end discovery

/-- C104: in a reliable network, whenever pollLoop of a controller begins to poll, the controller later knows every node
that its polls reach and whose replies reach it, and routes its universe to it. -/
theorem C104_discovered {N : Setting} (e : NetExec N) (hf : e.Fair) (hw : e.Writes) (hrel : e.Reliable) {k j : Nat}
    {hk hj : Host} (hm : e.Meet k j hk hj) {n i : Nat} {s : Sys} (hs : (e.state n)[k]? = some s)
    (hp : s.threads[i]? = some .plSendTop) :
    ∃ m, n ≤ m ∧ ∃ s', (e.state m)[k]? = some s' ∧ Knows s' hj.params.config := by
  rw [e.host_state hm.left] at hs
  rw [← hs] at hp
  obtain ⟨n1, _, h1⟩ := (e.host hm.left).polls hm.controller (e.host_fair hf hm.left) (e.host_writes hw hm.left) hp
  obtain ⟨n2, h2, hd⟩ := e.relayed hrel hm.left hm.right (p := Exec.poll hk.params) hm.there h1
  obtain ⟨n3, _, h3⟩ := poll_answered e hf hm hw hd
  obtain ⟨n4, h4, hd'⟩ := e.relayed hrel hm.right hm.left (p := Exec.answer hj.params) hm.back h3
  obtain ⟨n5, h5, hk⟩ := reply_known e hf hm hd'
  exact ⟨n5, by omega, _, e.at_host hm.left n5, hk⟩

/-- Both hosts of `sampleNet` start. -/
def sampleBegin : List Event := sampleShow.take 5

/-- The controller finds the node; every datagram is delivered to both hosts. -/
def sampleFind : List Event :=
  steps 0 0 2 ++ steps 0 1 2 ++ steps 0 2 1 ++ steps 0 3 2 ++ steps 0 2 4 ++ steps 0 3 2 ++ steps 0 0 4 ++ steps 0 2 4 ++
  steps 0 3 1 ++ steps 0 4 2 ++ steps 0 5 1 ++ steps 1 0 2 ++ steps 1 1 2 ++ steps 1 2 1 ++ steps 1 3 1 ++
  [.deliver 0 0 0 5] ++ steps 0 5 2 ++ [.deliver 0 0 1 3] ++ steps 1 3 3 ++ steps 1 1 3 ++ steps 1 3 1 ++ steps 1 4 3 ++
  steps 1 0 4 ++ steps 1 2 4 ++ [.deliver 0 1 0 5] ++ steps 0 5 2 ++ [.deliver 0 1 1 3] ++ steps 1 3 3 ++ steps 1 1 3 ++
  steps 1 3 1 ++ steps 1 5 1 ++ [.deliver 1 0 0 5] ++ steps 0 5 3 ++ steps 0 1 3 ++ steps 0 5 1 ++ steps 0 6 3 ++
  steps 0 3 1 ++ [.act 0 (.run 3 (.at 0))] ++ steps 0 3 1 ++ [.deliver 1 0 1 3] ++ steps 1 3 2

/-- A fair and reliable execution in which a controller and a node meet and pollLoop begins to poll. -/
example : ∃ (e : NetExec sampleNet) (s : Sys), e.Fair ∧ e.Writes ∧ e.Reliable ∧
    e.Meet 0 1 ⟨sampleController, ⟨[2, 0, 0, 1], 6454⟩⟩ ⟨sampleDimmer, ⟨[2, 0, 0, 2], 6454⟩⟩ ∧ (e.state 0)[0]? = some s ∧
    s.threads[3]? = some .plSendTop := by
  obtain ⟨e, hf, hw, hr, _, h0, _, _⟩ := net_along (N := sampleNet) (pre := sampleBegin) (es := sampleFind)
    (f := fun n => (n[0]?.any fun s => s.callbacks.get OpCode.opPollReply == some .pollReply &&
      s.threads[3]? == some .plSendTop) && n[1]?.any fun s => s.callbacks.get OpCode.opPoll == some .poll)
    (g := fun _ => true) (k := fun _ => true) (by decide +kernel)
  simp only [Bool.and_eq_true] at h0
  obtain ⟨s, hs, h1⟩ := Option.any_eq_true .. |>.mp h0.1
  obtain ⟨s', hs', h2⟩ := Option.any_eq_true .. |>.mp h0.2
  simp only [Bool.and_eq_true, beq_iff_eq] at h1 h2
  refine ⟨e, s, hf, hw, hr, ⟨rfl, rfl, rfl, rfl, .inl rfl, ?_, ?_, by decide, by decide, by unfold SameAddress; decide,
    by unfold SameAddress; decide⟩, hs, h1.2⟩
  · intro t ht
    rw [hs] at ht
    cases ht
    exact h1.1
  · intro t ht
    rw [hs'] at ht
    cases ht
    exact h2

/-- C104: if the network may lose datagrams, but not all of those that are sent again and again, and pollLoop polls again
and again, the controller knows the node again and again. -/
theorem C104_lossy {N : Setting} (e : NetExec N) (hf : e.Fair) (hw : e.Writes) (hrel : e.FairLossy) {k j : Nat}
    {hk hj : Host} (hm : e.Meet k j hk hj)
    (hp : ∀ n, ∃ m, n ≤ m ∧ ∃ (s : Sys) (i : Nat), (e.state m)[k]? = some s ∧ s.threads[i]? = some .plSendTop) (n : Nat) :
    ∃ m, n ≤ m ∧ ∃ s', (e.state m)[k]? = some s' ∧ Knows s' hj.params.config := by
  have grow : ∀ {f : Nat → Nat}, (∀ n, ∃ m, n ≤ m ∧ ∃ m', f m + 1 ≤ f m') → (∀ {a b}, a ≤ b → f a ≤ f b) →
      ∀ c, ∃ n, c ≤ f n := by
    intro f h hmono c
    induction c with
    | zero => exact ⟨0, Nat.zero_le _⟩
    | succ c ih =>
      obtain ⟨n, hn⟩ := ih
      obtain ⟨m, hm, m', h'⟩ := h n
      have := hmono hm
      exact ⟨m', by omega⟩
  have h1 : ∀ c, ∃ n t, (e.state n)[k]? = some t ∧ c ≤ t.wire.count (Exec.poll hk.params) := by
    intro c
    obtain ⟨n, hn⟩ := grow (f := fun n => ((e.host hm.left).state n).wire.count (Exec.poll hk.params)) (fun n => by
      obtain ⟨m, h, s, i, hs, ht⟩ := hp n
      rw [e.host_state hm.left] at hs
      rw [← hs] at ht
      obtain ⟨m', _, h'⟩ := (e.host hm.left).polls hm.controller (e.host_fair hf hm.left) (e.host_writes hw hm.left) ht
      exact ⟨m, h, m', h'⟩) (fun h => ((e.host hm.left).wire_mono h).sublist.count_le _) c
    exact ⟨n, _, e.at_host hm.left n, hn⟩
  have h2 := hrel k j (Exec.poll hk.params) (List.getElem?_eq_some_iff.mp hm.right).1 hm.there h1
  have h3 : ∀ c, ∃ n t, (e.state n)[j]? = some t ∧ c ≤ t.wire.count (Exec.answer hj.params) := by
    intro c
    obtain ⟨n, hn⟩ := grow (f := fun n => ((e.host hm.right).state n).wire.count (Exec.answer hj.params)) (fun n => by
      obtain ⟨m, h, hd⟩ := h2 n
      obtain ⟨m', _, h'⟩ := poll_answered e hf hm hw hd
      exact ⟨m, h, m', h'⟩) (fun h => ((e.host hm.right).wire_mono h).sublist.count_le _) c
    exact ⟨n, _, e.at_host hm.right n, hn⟩
  obtain ⟨n', hn', hd⟩ := hrel j k (Exec.answer hj.params) (List.getElem?_eq_some_iff.mp hm.left).1 hm.back h3 n
  obtain ⟨m, hm', hk⟩ := reply_known e hf hm hd
  exact ⟨m, by omega, _, e.at_host hm.left m, hk⟩

/-! ### C105 -/

/-- What is called for stays in the record of calls. -/
theorem calls_mono {P : Params} (e : Exec P) {n m : Nat} (h : n ≤ m) : (e.state n).calls <+: (e.state m).calls := by
  induction h with
  | refl => exact List.prefix_refl _
  | @step m _ ih =>
    refine ih.trans ?_
    rcases e.cases' m with ⟨i, t, c, _, _, h⟩ | ⟨_, l, _, h⟩
    · revert h
      generalize e.state (m + 1) = s'
      intro h
      cases h with
      | call => exact ⟨_, rfl⟩
      | _ => exact List.prefix_refl _
    · rw [h]; exact List.prefix_refl _

/-- A decodable datagram that is delivered from another host is handed to the call-back of its opcode. -/
theorem delivered_called {N : Setting} (e : NetExec N) (hf : e.Fair) {k j n : Nat} {hk hj : Host}
    (hhk : N.hosts[k]? = some hk) (hhj : N.hosts[j]? = some hj) {p : Payload} (hd : e.delivers k p j n)
    (ho : ¬ SameAddress hj.params.localIP hk.addr.ip) {x : AnyPacket} (hx : decode (trunc p) = some x) {f : Handler}
    (hcb : ((e.host hhj).state 0).callbacks.get (opcodeFor x) = some f) :
    ∃ m, n ≤ m ∧ ((e.host hhj).state n).calls.count (f, x) < ((e.host hhj).state m).calls.count (f, x) := by
  obtain ⟨g, hg⟩ := (e.host hhj).running
  have ha := e.arrives hhk hhj hd
  have hcb' : (((e.host hhj).drop n).state 0).callbacks.get (opcodeFor x) = some f := by
    show ((e.host hhj).state (n + 0)).callbacks.get (opcodeFor x) = _
    rw [(e.host hhj).callbacks_const hg]
    exact hcb
  obtain ⟨m, hm, h⟩ := C89_called ((e.host hhj).drop n) ((e.host hhj).drop_fair (e.host_fair hf hhj) n) hcb' 1
  have harr : ((e.host hhj).drop n).arrivals 1 = [x] := by
    show (((((e.host hhj).state (n + 1)).arrived.drop ((e.host hhj).state (n + 0)).arrived.length).filter
      (fromOther hj.params)).map trunc).filterMap decode = _
    rw [ha, Nat.add_zero, List.drop_left]
    have h1 : fromOther hj.params ⟨hk.addr, p.data⟩ = true := from_other ho
    have h2 : decode (trunc ⟨hk.addr, p.data⟩) = some x := hx
    simp [h1, h2]
  have h := h x rfl
  rw [harr, List.count_singleton_self] at h
  exact ⟨n + m, by omega, h⟩

/-- C105: in a reliable network the data of the last call of SendDMXToAddress for a universe gets to the call-back for DMX
of the node, when dmxUpdateLoop is ticked, the universe stays routed to the node and the tick finds the data due. -/
theorem C105_light_follows {N : Setting} (e : NetExec N) (hf : e.Fair) (hw : e.Writes) (hrel : e.Reliable) {c j : Nat}
    {hc hj : Host} (hhc : N.hosts[c]? = some hc) (hhj : N.hosts[j]? = some hj) {n m q i k : Nat} {d : Arr 512}
    {a : Address} {r : Ref} {b : DmxBuffer} {f : Handler}
    (hcb : ((e.host hhj).state 0).callbacks.get OpCode.opDMX = some f)
    (hother : ¬ SameAddress hj.params.localIP hc.addr.ip)
    (hreach : N.reaches c (((e.host hhc).state n).ctrl.heap r).udpAddress j = true)
    (hcall : ((e.host hhc).state n).threads[q]? = some (.caller d a)) (hq : e.event n = .act c (.run q .next))
    (hr : Routed ((e.host hhc).state n).ctrl a r)
    (hb : (((e.host hhc).state n).ctrl.heap r).dmxBuffer.get a = some b)
    (hnm : n < m) (ht : ((e.host hhc).state m).threads[i]? = some (.duWait k)) (ha : e.event m = .act c (.run i .tick))
    (hlate : ∀ u order now, .tick order now ∈ ((e.host hhc).state u).hist.drop ((e.host hhc).state m).hist.length →
      Due { b with stale := true } now hc.params.maxFPS)
    (hroute : ∀ u, m ≤ u → Routed ((e.host hhc).state u).ctrl a r)
    (hlast : ∀ u, ∀ o ∈ ((e.host hhc).state u).hist.drop ((e.host hhc).state (n + 1)).hist.length, ¬ SendsTo a o) :
    ∃ (v w : Nat) (x : ArtDMX), n ≤ v ∧ v ≤ w ∧
      ((e.host hhj).state v).calls.count (f, .dmx x) < ((e.host hhj).state w).calls.count (f, .dmx x) ∧
      x.data = d ∧ (⟨x.net, x.subUni⟩ : Address) = a := by
  have act_of : ∀ {n : Nat} {x : Act}, e.event n = .act c x → (e.host hhc).act n = x := by
    intro n x h
    show e.act c n = x
    simp only [NetExec.act, h, if_true]
  obtain ⟨u, hu, p, hp, p1, p2, p3, p4, p5, p6⟩ := C94_followed (e.host hhc) (e.host_fair hf hhc) (e.host_writes hw hhc)
    hcall (act_of hq) hr hb hnm ht (act_of ha) hlate hroute hlast
  -- the datagram is delivered
  have hcnt : ((e.host hhc).state n).wire.count p < ((e.host hhc).state u).wire.count p := by
    obtain ⟨l, hl⟩ := (e.host hhc).wire_mono hu
    rw [← hl, List.drop_left] at hp
    have := List.count_pos_iff.mpr hp
    rw [← hl, List.count_append]
    omega
  obtain ⟨v, hv, hd⟩ := e.relayed hrel hhc hhj (p := p) (by rw [p1]; exact hreach) hcnt
  -- it is understood
  have hwire : p ∈ ((e.host hhc).state u).wire := List.mem_of_mem_drop hp
  obtain ⟨as, has⟩ := ((e.host hhc).reach u).reach
  have hdmx : ∃ em : Emission, p = ⟨em.address, em.data⟩ ∧ IsDMX em := by
    rcases C76_wire has p hwire with rfl | ⟨_, rfl⟩ | ⟨em, rfl, he, _⟩
    · have h3 : (pollReplyImage (announced hc.params.config)).length = 239 := by
        rw [← ArtPollReply.image_eq]
        exact binaryWrite_length _
      rw [show (pollReplyImage (announced hc.params.config)).length = 530 from p2] at h3
      cases h3
    · exact absurd (show pollBytes.length = 530 from p2) (by decide +kernel)
    · exact ⟨em, rfl, he⟩
  obtain ⟨em, rfl, hem⟩ := hdmx
  obtain ⟨x, h1, h2, _, _, h5⟩ := dmx_understood hem
  have hdec : decode (trunc ⟨em.address, em.data⟩) = some (.dmx x) :=
    decode_of (p := ⟨em.address, em.data⟩) h1 (by show em.data.length ≤ 4096; rw [hem.1]; decide)
  obtain ⟨w, hw', h⟩ := delivered_called e hf hhc hhj hd hother hdec hcb
  refine ⟨v, w, x, hv, hw', h, ?_, ?_⟩
  · apply Arr.ext
    rw [h5]
    exact p6
  · rw [h2]
    show (⟨byteAt em.data 15, byteAt em.data 14⟩ : Address) = a
    rw [show byteAt em.data 15 = a.net from p5, show byteAt em.data 14 = a.subUni from p4]

/-- A frame is stored, the update ticker fires one second after the discovery, and everything is delivered. -/
def sampleLit : List Event :=
  steps 0 7 1 ++ [.act 0 (.run 4 .tick), .act 0 (.run 4 (.order [⟨0, 1⟩] second))] ++ steps 0 4 3 ++ steps 0 2 4 ++
  steps 0 4 2 ++ [.deliver 0 2 1 3] ++ steps 1 3 3 ++ steps 1 1 3 ++ steps 1 3 1 ++ steps 1 6 1

/-- A fair and reliable execution with everything that C105 asks for. -/
example : ∃ (e : NetExec sampleNet) (hhc : sampleNet.hosts[0]? = some ⟨sampleController, ⟨[2, 0, 0, 1], 6454⟩⟩)
    (hhj : sampleNet.hosts[1]? = some ⟨sampleDimmer, ⟨[2, 0, 0, 2], 6454⟩⟩) (d : Arr 512),
    e.Fair ∧ e.Writes ∧ e.Reliable ∧
    ((e.host hhj).state 0).callbacks.get OpCode.opDMX = some (.user 7) ∧
    ¬ SameAddress sampleDimmer.localIP [2, 0, 0, 1] ∧
    sampleNet.reaches 0 (((e.host hhc).state 0).ctrl.heap 0).udpAddress 1 = true ∧
    ((e.host hhc).state 0).threads[7]? = some (.caller d ⟨0, 1⟩) ∧ e.event 0 = .act 0 (.run 7 .next) ∧
    Routed ((e.host hhc).state 0).ctrl ⟨0, 1⟩ 0 ∧
    (((e.host hhc).state 0).ctrl.heap 0).dmxBuffer.get ⟨0, 1⟩ = some .zero ∧
    ((e.host hhc).state 1).threads[4]? = some (.duWait 0) ∧ e.event 1 = .act 0 (.run 4 .tick) ∧
    (∀ u order now, .tick order now ∈ ((e.host hhc).state u).hist.drop ((e.host hhc).state 1).hist.length →
      Due { DmxBuffer.zero with stale := true } now sampleController.maxFPS) ∧
    (∀ u, 1 ≤ u → Routed ((e.host hhc).state u).ctrl ⟨0, 1⟩ 0) ∧
    ∀ u, ∀ o ∈ ((e.host hhc).state u).hist.drop ((e.host hhc).state (0 + 1)).hist.length, ¬ SendsTo ⟨0, 1⟩ o := by
  obtain ⟨e, hf, hw, hr, he, h0, h1, h2⟩ := net_along (N := sampleNet)
    (pre := sampleBegin ++ sampleFind ++ [.act 0 (.call fullOn ⟨0, 1⟩)]) (es := sampleLit)
    (f := fun n => (n[1]?.any fun s => s.callbacks.get OpCode.opDMX == some (.user 7)) && n[0]?.any fun s =>
      sampleNet.reaches 0 (s.ctrl.heap 0).udpAddress 1 &&
      (match s.threads[7]? with | some (Thread.caller _ x) => x == ⟨0, 1⟩ | _ => false) &&
      (match (s.ctrl.heap 0).dmxBuffer.get ⟨0, 1⟩ with | some b => b == .zero | _ => false))
    (g := fun n => n[0]?.any fun s => s.threads[4]? == some (.duWait 0) && s.hist.length == 3)
    (k := fun n => n[0]?.any fun s => s.ctrl.output.get ⟨0, 1⟩ == some 0 && (s.hist.drop 3).all sampleLater)
    (by decide +kernel)
  have hhc : sampleNet.hosts[0]? = some ⟨sampleController, ⟨[2, 0, 0, 1], 6454⟩⟩ := rfl
  have hhj : sampleNet.hosts[1]? = some ⟨sampleDimmer, ⟨[2, 0, 0, 2], 6454⟩⟩ := rfl
  rw [e.at_host hhc] at h0
  rw [e.at_host hhj] at h0
  rw [e.at_host hhc] at h1
  have h2' : ∀ i, (((e.host hhc).state i).ctrl.output.get ⟨0, 1⟩ == some 0 &&
      (((e.host hhc).state i).hist.drop 3).all sampleLater) = true := by
    intro i
    have := h2 i
    rw [e.at_host hhc] at this
    exact this
  simp only [Option.any_some, Bool.and_eq_true, beq_iff_eq] at h0 h1 h2'
  obtain ⟨h00, ⟨h01, h3⟩, h4⟩ := h0
  split at h3
  case h_2 => cases h3
  rename_i d x hx
  cases beq_iff_eq.mp h3
  split at h4
  case h_2 => cases h4
  rename_i b hb
  cases beq_iff_eq.mp h4
  refine ⟨e, hhc, hhj, d, hf, hw, hr, h00, by unfold SameAddress; decide, h01, hx, he 0, (h2' 0).1, hb, h1.1,
    he 1, ?_, fun j _ => (h2' j).1, ?_⟩
  · intro u order now hm
    rw [h1.2] at hm
    have := List.all_eq_true.mp (h2' u).2 _ hm
    rw [beq_iff_eq.mp this]
    decide
  · intro u o hm hs
    rw [show (e.host hhc).state (0 + 1) = (e.host hhc).state 1 from rfl, h1.2] at hm
    have := List.all_eq_true.mp (h2' u).2 _ hm
    cases o <;> first | (cases hs; done) | skip
    rw [show _ = _ from hs] at this
    simp [sampleLater] at this

end Verif.Props
