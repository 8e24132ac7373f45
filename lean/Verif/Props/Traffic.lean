import Verif.Lemmas.Traffic
import Verif.Props.Amplify
import Verif.Props.Sizes
import Verif.Props.Follow
/-
What a controller writes: C132.
-/
namespace Verif.Props
open Spec Packet Code Artnet Conc

/-! ### C132 -/

theorem wire_le {P : Params} {s : Sys} (h : Reach P s) (f : Payload → Bool) :
    s.wire.countP f ≤ total (fun c : Chans => c.enq.countP f) s.chans := by
  have h1 : s.wire.countP f ≤ (enqueued s).countP f := by
    apply countP_le_of_count_le
    intro x
    have h1 := wire_taken h x
    have h2 : total (wTaken x) s.chans ≤ (enqueued s).count x := by
      rw [enqueued, count_flatMap_total]
      apply total_le_total
      intro c hc
      rw [(chans_ok h c hc).fifo, List.count_append, wTaken]
      omega
    omega
  refine Nat.le_trans h1 (Nat.le_of_eq ?_)
  simp only [enqueued]
  generalize s.chans = l
  induction l with
  | nil => rfl
  | cons a l ih => rw [List.flatMap_cons, List.countP_append, total_cons, ih]

/-- Every operation sends at most one datagram for every universe it goes through. -/
theorem step_le {c : Ctrl} (hw : c.output.WF) (o : Op) (h : c.CanDo o) : (c.step o).2.length ≤ universesOf o := by
  cases o with
  | tick order now =>
    have hn : order.Nodup := (show order.Perm c.output.keys from h).nodup_iff.mpr hw
    have t := (tickOver_spec c order now hn).addresses
    have := congrArg List.length t
    rw [List.length_map] at this
    show (c.tickOver order now).2.length ≤ order.length
    rw [this]
    exact List.length_filter_le _ _
  | _ => exact Nat.zero_le _

theorem run_le {c : Ctrl} (hi : Artnet.Inv c) (os : List Op) (h : c.CanRun os) :
    (c.run os).2.length ≤ (os.map universesOf).sum := by
  induction os generalizing c with
  | nil => exact Nat.le_refl _
  | cons o os ih =>
    have h1 := step_le hi.wfOut o h.1
    have h2 := ih (hi.step o h.1) h.2
    simp only [Ctrl.run, List.length_append, List.map_cons, List.sum_cons]
    omega

/-- A tick goes through at most 65536 universes and at most four for every known node. -/
theorem C132_tick (m : Int) (os : List Op) (order : List Address) (now : Int)
    (h : (Ctrl.init m).CanRun (os ++ [.tick order now])) :
    order.length ≤ 65536 ∧ order.length ≤ 4 * ((Ctrl.init m).run os).1.nodes.length := by
  obtain ⟨h1, h2⟩ := (canRun_append _ _ _).mp h
  have hp : order.Perm ((Ctrl.init m).run os).1.output.keys := h2.1
  rw [hp.length_eq]
  exact (C128_bounds m os h1).2

theorem ticks_le (m : Int) (os : List Op) (h : (Ctrl.init m).CanRun os) :
    (os.map universesOf).sum ≤ 65536 * os.countP isTick := by
  have key : ∀ (l : List Op) (k : Nat), k = l.length → (Ctrl.init m).CanRun l →
      (l.map universesOf).sum ≤ 65536 * l.countP isTick := by
    intro l k
    induction k generalizing l with
    | zero =>
      intro hk _
      rw [List.length_eq_zero_iff.mp hk.symm]
      exact Nat.le_refl _
    | succ k ih =>
      intro hk hl
      have hne : l ≠ [] := by rintro rfl; cases hk
      have e := List.dropLast_concat_getLast hne
      generalize l.dropLast = l' at e
      generalize l.getLast hne = o at e
      subst e
      have h1 := ih l' (by simpa using hk) ((canRun_append _ _ _).mp hl).1
      simp only [List.map_append, List.sum_append, List.countP_append, List.map_cons, List.map_nil, List.sum_cons,
        List.sum_nil, List.countP_cons, List.countP_nil]
      cases o with
      | tick order now =>
        have h2 := (C132_tick m l' order now hl).1
        simp [universesOf, isTick]
        omega
      | _ => simpa [universesOf, isTick] using h1
  exact key os _ rfl h

/-- C132: what a controller (or a Node) writes are ArtPollReply packets of 239 bytes, ArtPoll packets of 14 bytes and ArtDMX
packets of 530 bytes. There are at most as many ArtPollReply packets as calls of the built-in call-back for ArtPoll and own
polls; at most as many ArtPoll packets as own polls and calls of Start that could listen; and at most one ArtDMX packet for
every universe and tick. -/
theorem C132_traffic {P : Params} {s : Sys} (h : Reach P s) :
    s.wire.length = s.wire.countP isReply + s.wire.countP isArtPoll + s.wire.countP isDmx ∧
    bytesIn s.wire = 239 * s.wire.countP isReply + 14 * s.wire.countP isArtPoll + 530 * s.wire.countP isDmx ∧
    s.wire.countP isReply ≤ s.calls.countP isPollCall + s.own ∧
    s.wire.countP isArtPoll ≤ s.own + s.conns.length ∧
    s.wire.countP isDmx ≤ (s.hist.map universesOf).sum ∧
    (s.hist.map universesOf).sum ≤ 65536 * s.hist.countP isTick := by
  obtain ⟨hc, hp, -⟩ := C73_linearizable h
  have hw : ∀ p ∈ s.wire, (isReply p = true ∧ isArtPoll p = false ∧ isDmx p = false ∧ p.data.length = 239) ∨
      (isReply p = false ∧ isArtPoll p = true ∧ isDmx p = false ∧ p.data.length = 14) ∨
      (isReply p = false ∧ isArtPoll p = false ∧ isDmx p = true ∧ p.data.length = 530) := by
    intro p hp
    cases wire_sent h p hp with
    | poll hc hp =>
      subst hp
      exact .inr (.inl ⟨poll_not_reply _, poll_is_poll _, poll_not_dmx _, rfl⟩)
    | dmx e he hp =>
      subst hp
      have hd := (emitted_dmx h).2 e he
      exact .inr (.inr ⟨dmx_not_reply hd _, dmx_not_poll hd _, dmx_is_dmx hd _, hd.1⟩)
    | reply me hm hp =>
      subst hp
      refine .inl ⟨me_is_reply hm _, (me_not hm _).1, (me_not hm _).2, ?_⟩
      rw [me_eq] at hm
      rw [← Except.ok.inj hm]
      show (pollReplyImage (announced P.config)).length = 239
      rw [← ArtPollReply.image_eq]
      exact binaryWrite_length _
  have hs : s.wire.length = s.wire.countP isReply + s.wire.countP isArtPoll + s.wire.countP isDmx ∧
      bytesIn s.wire = 239 * s.wire.countP isReply + 14 * s.wire.countP isArtPoll + 530 * s.wire.countP isDmx := by
    revert hw
    generalize s.wire = l
    intro hw
    induction l with
    | nil => exact ⟨rfl, rfl⟩
    | cons p l ih =>
      have := ih fun q hq => hw q (List.mem_cons_of_mem _ hq)
      rw [bytes_cons]
      simp only [List.countP_cons, List.length_cons]
      rcases hw p List.mem_cons_self with ⟨a, b, c, d⟩ | ⟨a, b, c, d⟩ | ⟨a, b, c, d⟩ <;> rw [a, b, c, d] <;> simp <;> omega
  refine ⟨hs.1, hs.2, ?_, ?_, ?_, ticks_le _ _ hc⟩
  · exact Nat.le_trans (C62_written h) (C62_one_per_poll h)
  · have h1 := wire_le h isArtPoll
    have h2 := artpoll_conservation h
    have h3 := half_le h
    unfold wArtPoll at h2
    omega
  · have h1 := wire_le h isDmx
    have h2 := dmx_conservation h
    have h3 := run_le (inv_init P.maxFPS) s.hist hc
    have h4 := hp.length_le
    unfold wDmx at h2
    omega

/-- The bounds for ArtPollReply and ArtDMX packets are reached; 239 + 14 + 530 bytes are written. -/
example : after sampleController (sampleReady ++ sampleFollow) (fun s =>
    s.wire.countP isReply == 1 && s.calls.countP isPollCall + s.own == 1 && s.wire.countP isArtPoll == 1 &&
    s.wire.countP isDmx == 1 && (s.hist.map universesOf).sum == 1 && bytesIn s.wire == 783) = true := by decide +kernel

/-- The bound for ArtPoll packets is reached: pollLoop has not yet put the packet into pollCh. -/
example : after sampleController (sampleStart ++ [.run 3 .next, .run 3 .next, .run 3 .next, .run 2 .next, .run 2 .next, .run 2 .next])
    (fun s => s.wire.countP isArtPoll == s.own + s.conns.length && s.own == 0) = true := by decide +kernel

end Verif.Props
