import Verif.Lemmas.NetFair
import Verif.Props.Follow
import Verif.Props.Net
/-
What a host does eventually about a datagram, and what the network does.
-/
namespace Verif.Conc
open Packet Code Artnet Spec Props

/-- The rest of an execution. -/
def Exec.drop {P : Params} (e : Exec P) (k : Nat) : Exec P where
  state n := e.state (k + n)
  act n := e.act (k + n)
  first := e.reach k
  next n := e.next (k + n)
  tidy n := e.tidy (k + n)
  session n := e.session (k + n)

namespace Exec
variable {P : Params} (e : Exec P)

theorem drop_fair (hf : e.Fair) (k : Nat) : (e.drop k).Fair := by
  intro i t h n
  obtain ⟨m, hm, hg⟩ := hf i t (fun n => by
    obtain ⟨m, hm, hr⟩ := h n
    exact ⟨k + m, by omega, hr⟩) (k + n)
  refine ⟨m - k, by omega, ?_⟩
  have : k + (m - k) = m := by omega
  show (e.state (k + (m - k))).threads[i]? = some t ∧ ∃ c, (Act.run i c).quiet = true ∧ e.act (k + (m - k)) = .run i c
  rw [this]
  exact hg

theorem drop_writes (hw : e.writes) (k : Nat) : (e.drop k).writes := fun n i p h => hw (k + n) i p h

theorem wire_mono {n m : Nat} (h : n ≤ m) : (e.state n).wire <+: (e.state m).wire := by
  induction h with
  | refl => exact List.prefix_refl _
  | @step m _ ih =>
    refine ih.trans ?_
    rcases e.cases' m with ⟨i, t, c, _, _, h⟩ | ⟨_, l, _, h⟩
    · revert h
      generalize e.state (m + 1) = s'
      intro h
      cases h with
      | write => exact ⟨_, rfl⟩
      | _ => exact List.prefix_refl _
    · rw [h]; exact List.prefix_refl _

/-- The ArtPoll datagram of a controller. -/
def poll (P : Params) : Payload := ⟨P.ctrlBroadcast, pollBytes⟩

/-- When pollLoop is about to poll, an ArtPoll is written. -/
theorem polls (hC : P.controller = true) (hf : e.Fair) (hw : e.writes) {n i : Nat}
    (ht : (e.state n).threads[i]? = some .plSendTop) :
    ∃ m, n ≤ m ∧ (e.state n).wire.count (poll P) + 1 ≤ (e.state m).wire.count (poll P) := by
  obtain ⟨g, hg⟩ := e.running
  obtain ⟨m1, c1, hm1, ht1, _, hrun1⟩ := e.goes_on hf hg (.inl hC) ht rfl
  have h1 : ∃ g', (e.state (m1 + 1)).threads[i]? = some (.plSend g') := by
    have hlt := (List.getElem?_eq_some_iff.mp ht1).1
    have ha := e.alive (m1 + 1)
    revert hrun1 ha
    generalize e.state (m1 + 1) = s'
    intro hrun ha
    cases hrun with
    | panic => cases ha
    | move m _ => cases m with
      | plSendTop => exact ⟨_, List.getElem?_set_self hlt⟩
    | pushSend k => cases k
  obtain ⟨g', h1⟩ := h1
  obtain ⟨m2, c2, hm2, ht2, _, hrun2⟩ := e.goes_on hf hg (.inl hC) h1 rfl
  have hat := latest (e.reach m2) _ (List.mem_of_getElem? ht2)
  have hgg := (hg m2).same hat
  subst hgg
  have h2 : (e.state (m2 + 1)).queue g' Chans.enq = (e.state m2).queue g' Chans.enq ++ [poll P] := by
    have ha := e.alive (m2 + 1)
    revert hrun2 ha
    generalize e.state (m2 + 1) = s'
    intro hrun ha
    cases hrun with
    | panic => cases ha
    | move m _ => cases m
    | pushSend k hch _ =>
      cases k
      rw [queue_eq hch, queue_set_self hch rfl]
      rfl
  obtain ⟨l, h3, h4⟩ := e.line_step hw hg m2
  rw [h2, List.append_cancel_left_eq] at h4
  subst h4
  obtain ⟨m3, hm3, h5⟩ := e.wire_all hf hw hg (m2 + 1)
  refine ⟨m3, by omega, ?_⟩
  have h6 := (e.wire_mono (n := n) (m := m2) (by omega)).sublist.count_le (poll P)
  have h7 := h5.sublist.count_le (poll P)
  rw [h3, line] at h7
  simp only [List.count_append, List.count_singleton_self] at h7
  omega

/-- The ArtPollReply datagram of a host. -/
def answer (P : Params) : Payload := ⟨P.broadcast, pollReplyImage (announced P.config)⟩

theorem reply_is {s : Sys} (h : Reach P s) {p : Payload} (hp : p ∈ s.wire) : isReply p = (p == answer P) := by
  obtain ⟨as, ha⟩ := h
  rcases C76_wire ha p hp with rfl | ⟨_, rfl⟩ | ⟨e, rfl, he, _⟩
  · exact (image_is_reply _ _).trans (beq_self_eq_true (answer P)).symm
  · have h1 : isReply ⟨P.ctrlBroadcast, pollBytes⟩ = false := by
      simp only [isReply]
      decide +kernel
    have h2 : pollBytes ≠ pollReplyImage (announced P.config) := by
      intro h
      have h3 : (pollReplyImage (announced P.config)).length = 239 := by
        rw [← ArtPollReply.image_eq]
        exact binaryWrite_length _
      rw [← h] at h3
      revert h3
      decide +kernel
    rw [h1]
    symm
    rw [beq_eq_false_iff_ne]
    exact fun h => h2 (congrArg Payload.data h)
  · have h3 : (pollReplyImage (announced P.config)).length = 239 := by
      rw [← ArtPollReply.image_eq]
      exact binaryWrite_length _
    have h1 : isReply ⟨e.address, e.data⟩ = false := by
      have h9 : byteAt e.data 9 = 0x50 := by
        have := congrArg (·[9]?) he.2.1
        rw [List.getElem?_take_of_lt (by decide)] at this
        simp only [byteAt, this]
        rfl
      simp [isReply, h9]
    rw [h1]
    symm
    rw [beq_eq_false_iff_ne]
    intro h
    have := congrArg (fun x : Payload => x.data.length) h
    simp only [answer, he.1, h3] at this
    omega

/-- An ArtPoll from another host that arrives at time `n` is answered. -/
theorem answers (hf : e.Fair) (hw : e.writes) {n : Nat} (hcb : (e.state 0).callbacks.get OpCode.opPoll = some .poll)
    {x : Payload} (ha : (e.state (n + 1)).arrived = (e.state n).arrived ++ [x]) (ho : fromOther P x = true)
    {q : ArtPoll} (hd : decode (trunc x) = some (.poll q)) :
    ∃ m, n ≤ m ∧ (e.state n).wire.count (answer P) + 1 ≤ (e.state m).wire.count (answer P) := by
  obtain ⟨g, hg⟩ := e.running
  have hcb' : ((e.drop n).state 0).callbacks.get OpCode.opPoll = some .poll := by
    show (e.state (n + 0)).callbacks.get OpCode.opPoll = _
    rw [e.callbacks_const hg]
    exact hcb
  obtain ⟨m, hm, h⟩ := C91_answered (e.drop n) (e.drop_fair hf n) (e.drop_writes hw n) hcb' 1
  have harr : (e.drop n).arrivals 1 = [.poll q] := by
    show ((((e.state (n + 1)).arrived.drop (e.state (n + 0)).arrived.length).filter (fromOther P)).map trunc).filterMap
      decode = _
    rw [ha, Nat.add_zero, List.drop_left]
    simp [ho, hd]
  rw [harr, show [AnyPacket.poll q].countP isPoll = 1 from rfl] at h
  refine ⟨n + m, by omega, ?_⟩
  have hc : ∀ k, (e.state k).wire.countP isReply = (e.state k).wire.count (answer P) := fun k =>
    List.countP_congr fun p hp => by rw [reply_is (e.reach k).reach hp]
  have h0 := hc n
  have h1 := hc (n + m)
  have h2 : (e.state n).wire.countP isReply + 1 ≤ (e.state (n + m)).wire.countP isReply := h
  rw [h0, h1] at h2
  exact h2

/-- A reply that pollLoop acts on is processed, with the lock free. -/
theorem processes (hC : P.controller = true) (hc : P.config.type = StyleCode.stController) (hf : e.Fair) {n : Nat}
    (hcb : (e.state 0).callbacks.get OpCode.opPollReply = some .pollReply)
    {x : Payload} (ha : (e.state (n + 1)).arrived = (e.state n).arrived ++ [x]) (ho : fromOther P x = true)
    {q : ArtPollReply} (hd : decode (trunc x) = some (.pollReply q)) (hq : ignored q = false) :
    ∃ m now, n ≤ m ∧ (e.state m).lock = false ∧ (e.state (m + 1)).lock = false ∧
      (e.state (m + 1)).ctrl = (e.state m).ctrl.pollReply q now := by
  obtain ⟨g, hg⟩ := e.running
  have hcb' : ((e.drop n).state 0).callbacks.get OpCode.opPollReply = some .pollReply := by
    show (e.state (n + 0)).callbacks.get OpCode.opPollReply = _
    rw [e.callbacks_const hg]
    exact hcb
  obtain ⟨m, hm, h⟩ := C92_arrivals hC hc (e.drop n) (e.drop_fair hf n) hcb' 1 q
  have harr : (e.drop n).arrivals 1 = [.pollReply q] := by
    show ((((e.state (n + 1)).arrived.drop (e.state (n + 0)).arrived.length).filter (fromOther P)).map trunc).filterMap
      decode = _
    rw [ha, Nat.add_zero, List.drop_left]
    simp [ho, hd]
  rw [harr, List.count_singleton_self] at h
  have h : (e.state (n + 0)).hist.countP (isReplyOp q) + 1 ≤ (e.state (n + m)).hist.countP (isReplyOp q) := h
  have key : ∀ k, (e.state n).hist.countP (isReplyOp q) + 1 ≤ (e.state (n + k)).hist.countP (isReplyOp q) →
      ∃ u now, n ≤ u ∧ (e.state u).lock = false ∧ (e.state (u + 1)).lock = false ∧
        (e.state (u + 1)).ctrl = (e.state u).ctrl.pollReply q now := by
    intro k
    induction k with
    | zero => intro h; simp only [Nat.add_zero] at h; omega
    | succ k ih =>
      intro h
      by_cases h1 : (e.state n).hist.countP (isReplyOp q) + 1 ≤ (e.state (n + k)).hist.countP (isReplyOp q)
      · exact ih h1
      · have h2 : (e.state (n + k)).hist.countP (isReplyOp q) < (e.state (n + k + 1)).hist.countP (isReplyOp q) := by
          rw [Nat.add_assoc]; omega
        have h3 : (e.state (n + k)).lock = false ∧ (e.state (n + k + 1)).lock = false ∧
            ∃ now, (e.state (n + k + 1)).ctrl = (e.state (n + k)).ctrl.pollReply q now := by
          rcases e.cases' (n + k) with ⟨i, t, c, hat, _, hr⟩ | ⟨_, l, _, hr⟩
          · clear hat
            revert hr h2
            generalize e.state (n + k + 1) = s'
            intro h2 hr
            cases hr with
            | reply hi hl =>
              rename_i p now
              by_cases hpq : p = q
              · subst hpq; exact ⟨hl, hl, now, rfl⟩
              · simp [Sys.goto, List.countP_append, isReplyOp, hpq] at h2
            | ignore hi =>
              rename_i p now
              by_cases hpq : p = q
              · subst hpq; rw [hi] at hq; cases hq
              · simp [Sys.goto, List.countP_append, isReplyOp, hpq] at h2
            | gc | lock | sendDMX => simp [Sys.goto, List.countP_append, isReplyOp] at h2
            | _ => exact absurd h2 (Nat.lt_irrefl _)
          · rw [hr] at h2
            exact absurd h2 (Nat.lt_irrefl _)
        obtain ⟨l1, l2, now, l3⟩ := h3
        exact ⟨n + k, now, by omega, l1, l2, l3⟩
  exact key m h

end Exec
end Verif.Conc

namespace Verif.Net
open Artnet Conc Packet Spec Props

namespace NetExec
variable {N : Setting} (e : NetExec N)

/-- A datagram keeps its number. -/
theorem same_datagram {k m n n' : Nat} {hk : Host} (hh : N.hosts[k]? = some hk) {p p' : Payload}
    (h : ((e.host hh).state n).wire[m]? = some p) (h' : ((e.host hh).state n').wire[m]? = some p') : p = p' := by
  have get : ∀ {l l' : List Payload} {p p' : Payload}, l <+: l' → l[m]? = some p → l'[m]? = some p' → p = p' := by
    intro l l' p p' hp h h'
    obtain ⟨r, rfl⟩ := hp
    rw [List.getElem?_append_left (List.getElem?_eq_some_iff.mp h).1, h] at h'
    exact Option.some.inj h'
  rcases Nat.le_total n n' with hn | hn
  · exact get ((e.host hh).wire_mono hn) h h'
  · exact (get ((e.host hh).wire_mono hn) h' h).symm

/-- In a reliable network what is written after time `n` is delivered after time `n`. -/
theorem relayed (hrel : e.Reliable) {k j n m : Nat} {hk hj : Host} (hhk : N.hosts[k]? = some hk) (hhj : N.hosts[j]? = some hj)
    {p : Payload} (hr : N.reaches k p.address j = true)
    (hc : ((e.host hhk).state n).wire.count p < ((e.host hhk).state m).wire.count p) :
    ∃ n', n ≤ n' ∧ e.delivers k p j n' := by
  have hnm : n ≤ m := by
    rcases Nat.le_total n m with h | h
    · exact h
    · have := ((e.host hhk).wire_mono h).sublist.count_le p
      omega
  obtain ⟨l, hl⟩ := (e.host hhk).wire_mono hnm
  rw [← hl, List.count_append] at hc
  have hp : p ∈ l := List.count_pos_iff.mp (by omega)
  obtain ⟨i, hi⟩ := List.getElem?_of_mem hp
  have hi' : ((e.host hhk).state m).wire[((e.host hhk).state n).wire.length + i]? = some p := by
    rw [← hl, List.getElem?_append_right (by omega)]
    simpa using hi
  have h0 := ((e.host hhk).wire_mono (Nat.zero_le n)).length_le
  obtain ⟨n', i', hev⟩ := hrel k j m _ _ _ p (e.at_host hhk 0) (e.at_host hhk m) (by omega) hi'
    (List.getElem?_eq_some_iff.mp hhj).1 hr
  obtain ⟨j', a, hl', hx⟩ := exec_hosts (e.next n')
  rcases hx with hx | ⟨k', m', i'', hk', t, p', hx, e1, e2, e3, e4, _⟩
  · rw [hev] at hx; cases hx
  rw [hev] at hx
  cases hx
  have e5 := (e.host_state hhk).mp e2
  rw [← e5] at e3
  cases e.same_datagram hhk hi' e3
  refine ⟨n', ?_, _, _, t, hev, e2, by rw [← e5]; exact e3⟩
  rcases Nat.le_total n n' with h | h
  · exact h
  · have h1 := ((e.host hhk).wire_mono h).length_le
    have h2 := (List.getElem?_eq_some_iff.mp e3).1
    omega

end NetExec
end Verif.Net
