import Verif.Lemmas.NetSched
import Verif.Props.NetFair
/-
The reader listens again and again (C106), and a network can go on for ever from every state (C107).
-/
namespace Verif.Props
open Spec Packet Code Artnet Conc Net

/-- C106: within a session the node is again and again in ReadFromUDP on the open connection. -/
theorem C106_listens {P : Params} (e : Exec P) (hf : e.Fair) (n : Nat) : ∃ (m i k : Nat) (b : Bytes), n ≤ m ∧
    (e.state m).threads[i]? = some (.rdWait k b) ∧ (e.state m).conns[k]? = some true := e.reading hf n

/-- A fair execution in which datagrams arrive. -/
example : ∃ e : Exec sampleNode, e.Fair ∧ ∃ n, (e.arrivals n).countP isPoll = 1 := by
  obtain ⟨e, hf, hw, h, n, hn⟩ := fair_after (P := sampleNode) (f := fun _ => true)
    (g := fun s s' => (((((s'.arrived.drop s.arrived.length).filter (fromOther sampleNode)).map trunc).filterMap
      decode).countP isPoll == 1)) (pre := samplePollAnswered.take 13)
    (as := sampleRead 3 ⟨[2, 0, 0, 3], 6454⟩ samplePoll ++ samplePollAnswered.drop 13 ++ [.run 5 .next, .run 5 .next,
      .run 5 .next, .run 0 .next, .run 0 .next, .run 0 .next, .run 0 .next, .run 2 .next, .run 2 .next, .run 2 .next, .run 2 .next] ++ sampleSettleN)
    (by decide +kernel)
  simp only [beq_iff_eq] at hn
  exact ⟨e, hf, n, hn n (Nat.le_refl _)⟩

/-- A ticker that fires begins a poll. -/
theorem ticks_polls {N : Setting} {e : NetExec N} {k : Nat} (h : e.Ticks k) (n : Nat) :
    ∃ m, n ≤ m ∧ ∃ (s : Sys) (i : Nat), (e.state m)[k]? = some s ∧ s.threads[i]? = some .plSendTop := by
  obtain ⟨m, hm, s, i, g, k', hs, ht, he⟩ := h.poll n
  have hx := e.next m
  obtain ⟨j', a, hl, hev⟩ := exec_hosts hx
  obtain ⟨hh', s0, s', l1, l2, l3, l4, l5⟩ := local_at hl
  rcases hev with e1 | ⟨_, _, _, _, _, _, e1, _⟩
  · rw [he] at e1
    cases e1
    rw [hs] at l2
    cases l2
    rw [exec_run (e.alive m _ (List.mem_of_getElem? hs)) ht] at l3
    have l3 : some (s.goto i .plSendTop) = some s' := l3
    cases l3
    exact ⟨m + 1, by omega, _, i, l4, List.getElem?_set_self (List.getElem?_eq_some_iff.mp ht).1⟩
  · rw [he] at e1; cases e1

/-- C107: from every state in which every host is in a session the network can go on for ever, fairly, with every datagram
delivered exactly once to every host it can reach and with every ticker firing again and again. -/
theorem C107_goes_on {N : Setting} {n : State} (hne : N.hosts ≠ []) (h : HealthyNet N n) :
    ∃ e : NetExec N, e.state 0 = n ∧ e.Fair ∧ e.Writes ∧ e.Reliable ∧ e.FairLossy ∧ e.Once ∧
      ∀ (j : Nat) (hj : Host), N.hosts[j]? = some hj → hj.params.controller = true → e.Ticks j :=
  ⟨made hne h, rfl, made_fair hne h, made_writes hne h, made_reliable hne h, NetExec.lossy (made_reliable hne h), made_once hne h,
    fun _ _ hj hc => made_ticks hne h hj hc⟩

/-- C107: in every such execution every controller knows again and again every node that it can meet. -/
theorem C107_known {N : Setting} (e : NetExec N) (hf : e.Fair) (hw : e.Writes) (hrel : e.FairLossy) {k j : Nat}
    {hk hj : Host} (hm : e.Meet k j hk hj) (ht : e.Ticks k) (n : Nat) :
    ∃ m, n ≤ m ∧ ∃ s', (e.state m)[k]? = some s' ∧ Knows s' hj.params.config :=
  C104_lossy e hf hw hrel hm (ticks_polls ht) n

/-- The state is healthy, but for the past. -/
def healthy (P : Params) (s : Sys) : Bool :=
  decide (s.phase = .started ∧ s.conns.getLast? = some true) && s.crashed.isNone && s.threads.all (fun t => match t with | .rdCheck _ none => false | _ => true) &&
  s.callbacks.all (·.2 != .nil) && (!P.controller || (decide (1 ≤ P.maxFPS) && decide (P.maxFPS ≤ 1000000000)))

theorem healthy_of {P : Params} {s : Sys} (ht : TidyReach P s) (h : healthy P s = true) : Healthy P s := by
  simp only [healthy, Bool.and_eq_true, decide_eq_true_eq, Option.isNone_iff_eq_none, List.all_eq_true, Bool.or_eq_true,
    Bool.not_eq_true'] at h
  obtain ⟨⟨⟨⟨h1, h2⟩, h3⟩, h5⟩, h4⟩ := h
  refine ⟨ht, h1, h2, fun b hb => ?_, fun o ho => ?_, fun hc => ?_⟩
  · have := h3 _ hb
    cases this
  · have := h5 _ (get_some_mem ho)
    simp at this
  · rcases h4 with h4 | h4
    · rw [hc] at h4; cases h4
    · exact h4

/-- Both hosts of `sampleNet` have started; they can go on for ever, and the controller knows the node again and again. -/
example : ∃ (n : State) (e : NetExec sampleNet), HealthyNet sampleNet n ∧ e.state 0 = n ∧ e.Fair ∧ e.Writes ∧
    e.FairLossy ∧ e.Meet 0 1 ⟨sampleController, ⟨[2, 0, 0, 1], 6454⟩⟩ ⟨sampleDimmer, ⟨[2, 0, 0, 2], 6454⟩⟩ ∧ e.Ticks 0 := by
  have h : (tidilyNet sampleNet sampleNet.init sampleBegin).any (fun n =>
      (n[0]?.any fun s => s.callbacks.get OpCode.opPollReply == some .pollReply && healthy sampleController s) &&
      (n[1]?.any fun s => s.callbacks.get OpCode.opPoll == some .poll && healthy sampleDimmer s)) = true := by decide +kernel
  obtain ⟨n, hn, hs⟩ := Option.any_eq_true .. |>.mp h
  have ht := tidilyNet_tidy (tidyNet_init sampleNet) hn
  simp only [Bool.and_eq_true] at hs
  obtain ⟨s0, hs0, h0⟩ := Option.any_eq_true .. |>.mp hs.1
  obtain ⟨s1, hs1, h1⟩ := Option.any_eq_true .. |>.mp hs.2
  simp only [Bool.and_eq_true, beq_iff_eq] at h0 h1
  have hh : HealthyNet sampleNet n := by
    refine ⟨ht.1, fun j x s hx hs => ?_⟩
    have hr := ht.2 j x s hx hs
    match j, hx with
    | 0, hx =>
      cases hx
      rw [hs0] at hs
      cases hs
      exact healthy_of hr h0.2
    | 1, hx =>
      cases hx
      rw [hs1] at hs
      cases hs
      exact healthy_of hr h1.2
    | j + 2, hx => cases hx
  obtain ⟨e, e0, hf, hw, _, hl, _, htk⟩ := C107_goes_on (by nofun) hh
  refine ⟨n, e, hh, e0, hf, hw, hl, ⟨rfl, rfl, rfl, rfl, .inl rfl, ?_, ?_, by decide, by decide, by unfold SameAddress; decide,
    by unfold SameAddress; decide⟩, htk 0 _ rfl rfl⟩
  · intro t ht
    rw [e0, hs0] at ht
    cases ht
    exact h0.1
  · intro t ht
    rw [e0, hs1] at ht
    cases ht
    exact h1.1

end Verif.Props
