import Verif.Lemmas.FairTick
import Verif.Lemmas.Stamp
import Verif.Props.Fair
import Verif.Props.Linear
/-
Ticks and data under fairness: C93 and C94.
-/
namespace Verif.Props
open Spec Packet Code Artnet Conc

/-- An operation that is no tick and no send for `a` keeps the buffer of `a` and the address of every node. -/
theorem keeps_buffer {c : Ctrl} (hi : Inv c) (o : Op) (ho : c.CanDo o) (h1 : ¬ IsTick o) {a : Address} {r : Ref}
    (h2 : ¬ SendsTo a o) (hr : r < c.next) : r < (c.step o).1.next ∧ (c.step o).2 = [] ∧
      ((c.step o).1.heap r).dmxBuffer.get a = (c.heap r).dmxBuffer.get a ∧
      ((c.step o).1.heap r).udpAddress = (c.heap r).udpAddress := by
  cases o with
  | tick => exact absurd trivial h1
  | restart => exact ⟨hr, rfl, rfl, rfl⟩
  | send d x =>
    obtain ⟨f1, _, _, _, _, f6, _, f8⟩ := sendDMX_frame c d x
    refine ⟨?_, rfl, ?_, (f6 r).2.2.1⟩
    · show r < (c.sendDMX d x).next
      rw [f1]; exact hr
    · show ((c.sendDMX d x).heap r).dmxBuffer.get a = _
      rw [f8, if_neg]
      exact fun h => h2 h.2.symm
  | gc clock =>
    obtain ⟨q1, q2, q3, _⟩ := quiet_step hi (.gc clock) ho id (fun _ => id)
    obtain ⟨⟨g1, _⟩, _⟩ := gcNode_spec c clock hi.nodup
    refine ⟨Nat.lt_of_lt_of_le hr q1, q2, by rw [q3 r hr], ?_⟩
    show ((c.gcNode clock).heap r).udpAddress = _
    rw [g1]
  | reply p now =>
    obtain ⟨q1, q2, q3, _⟩ := quiet_step hi (.reply p now) ho id (fun _ => id)
    refine ⟨Nat.lt_of_lt_of_le hr q1, q2, by rw [q3 r hr], ?_⟩
    show ((c.pollReply p now).heap r).udpAddress = _
    rw [pollReply_eq]
    split
    · rcases updateNode_cases c (configFromArtPollReply p) now with ⟨s, _, e⟩ | ⟨_, e⟩
      · rw [e]
        by_cases hs : r = s <;> simp [updatedAt, hs]
      · rw [e]
        have hne : r ≠ c.next := fun e => absurd hr (e ▸ Nat.lt_irrefl _)
        simp [addedNode, hne]
    · rfl

/-- A datagram for universe `a` to node `r` with the data of `b`. -/
def Carries (c : Ctrl) (a : Address) (r : Ref) (b : DmxBuffer) (e : Emission) : Prop :=
  IsDMX e ∧ emAddress e = a ∧ e.ref = r ∧ e.address = (c.heap r).udpAddress ∧ emChannels e = b.data.val

/-- A buffer is sent or stays as it is, until the next send for its universe. -/
theorem sent_or_kept {a : Address} {r : Ref} {b : DmxBuffer} (os : List Op) (c : Ctrl) (hi : Inv c)
    (ho : c.CanRun os) (hr : r < c.next) (hb : (c.heap r).dmxBuffer.get a = some b) (hs : ∀ o ∈ os, ¬ SendsTo a o) :
    (∃ e ∈ (c.run os).2, Carries c a r b e) ∨
      ((c.run os).1.heap r).dmxBuffer.get a = some b ∧ ((c.run os).1.heap r).udpAddress = (c.heap r).udpAddress := by
  induction os generalizing c with
  | nil => exact .inr ⟨hb, rfl⟩
  | cons o os ih =>
    rw [(run_cons c o os).1, (run_cons c o os).2]
    suffices (∃ e ∈ (c.step o).2, Carries c a r b e) ∨
        (r < (c.step o).1.next ∧ ((c.step o).1.heap r).dmxBuffer.get a = some b ∧
          ((c.step o).1.heap r).udpAddress = (c.heap r).udpAddress) by
      rcases this with ⟨e, he, h⟩ | ⟨h1, h2, h3⟩
      · exact .inl ⟨e, List.mem_append_left _ he, h⟩
      · rcases ih _ (hi.step o ho.1) ho.2 h1 h2 (fun o ho => hs o (List.mem_cons_of_mem _ ho)) with ⟨e, he, h⟩ | ⟨h4, h5⟩
        · refine .inl ⟨e, List.mem_append_right _ he, ?_⟩
          simpa only [Carries, h3] using h
        · exact .inr ⟨h4, h5.trans h3⟩
    by_cases ht : IsTick o
    · cases o with
      | tick order now =>
        have t := tick_spec hi (now := now) ho.1
        have hbuf : bufferAt (c.heap r) a = b := by rw [bufferAt, hb]; rfl
        have h1 := t.buffer r a
        rw [hbuf, hb] at h1
        by_cases hd : (a ∈ order ∧ c.output.get a = some r) ∧ Due b now c.maxFPS
        · obtain ⟨hx, hy⟩ := tick_sends c hi.wfOut order ho.1 now a r hd.1.2
          rw [hbuf] at hx hy
          obtain ⟨e, he, ha⟩ := hx.mp hd.2
          obtain ⟨g1, g2, g3, g4⟩ := hy e he ha
          exact .inl ⟨e, he, g1, ha, g2, g3, g4⟩
        · refine .inr ⟨?_, ?_, t.udp r⟩
          · rw [t.next]; exact hr
          · rw [h1]
            split
            · rename_i h2
              rw [ticked, if_neg fun h3 => hd ⟨h2, h3⟩]
            · rfl
      | _ => cases ht
    · obtain ⟨h1, h2, h3, h4⟩ := keeps_buffer hi o ho.1 ht (hs o (List.mem_cons_self ..)) hr
      exact .inr ⟨h1, by rw [h3, hb], h4⟩

/-- What is sent while the history grows, from one moment at which nodeLock is free to another. -/
theorem runs_between {P : Params} (e : Exec P) {n m : Nat} (h : n ≤ m) (hn : (e.state n).lock = false)
    (hm : (e.state m).lock = false) : ∃ os, (e.state m).hist = (e.state n).hist ++ os ∧ (e.state n).ctrl.CanRun os ∧
      ((e.state n).ctrl.run os).1 = (e.state m).ctrl ∧
      (e.state m).emitted = (e.state n).emitted ++ ((e.state n).ctrl.run os).2 := by
  obtain ⟨a1, _, a3⟩ := C73_linearizable (e.reach n).reach
  obtain ⟨b1, _, b3⟩ := C73_linearizable (e.reach m).reach
  have a3 := a3 hn
  have b3 := b3 hm
  obtain ⟨os, ho⟩ := e.hist_mono h
  rw [← ho, canRun_append, a3] at b1
  obtain ⟨c1, c2⟩ := run_append (Ctrl.init P.maxFPS) (e.state n).hist os
  rw [ho, b3, a3] at c1 c2
  exact ⟨os, ho.symm, b1.2, c1.symm, c2⟩

theorem inv_of_free {P : Params} {s : Sys} (h : Reach P s) (hl : s.lock = false) : Inv s.ctrl := by
  obtain ⟨a1, _, a3⟩ := C73_linearizable h
  have := (inv_init P.maxFPS).run _ a1
  rw [a3 hl] at this
  exact this

/-- What dmxUpdateLoop sends between two moments is written. -/
theorem written_between {P : Params} (e : Exec P) (hf : e.Fair) (hw : e.writes) {n m : Nat} (h : n ≤ m)
    {es : List Emission} (he : (e.state m).emitted = (e.state n).emitted ++ es) :
    ∃ j, m ≤ j ∧ (es.map payload).Sublist ((e.state j).wire.drop (e.state n).wire.length) := by
  obtain ⟨g, hg⟩ := e.running
  obtain ⟨es', l, h1, h2, h3⟩ := e.emits hg h
  rw [he, List.append_cancel_left_eq] at h1
  subst h1
  obtain ⟨l', h4, h5⟩ := e.line_adds hw hg h
  rw [h2, List.append_cancel_left_eq] at h5
  subst h5
  obtain ⟨j, hj, h6⟩ := e.wire_all hf hw hg m
  refine ⟨j, hj, h3.trans ?_⟩
  obtain ⟨rest, h6⟩ := h6
  rw [h4] at h6
  have : (e.state j).wire = (e.state n).wire ++
      ((e.state n).threads.flatMap Thread.writing ++ (e.state n).queue g Chans.send ++ l ++ rest) := by
    rw [← h6, Exec.line]; simp only [List.append_assoc]
  rw [this, List.drop_left]
  exact ((List.sublist_append_right _ _).trans (List.sublist_append_left _ _))

/-- A condition holds in every state on the way. -/
def along (P : Params) (f : Sys → Bool) : List Act → Sys → Bool
  | [], s => f s
  | a :: as, s => f s && (s.exec P a).any (along P f as)

theorem along_path {P : Params} {f : Sys → Bool} {as : List Act} {s : Sys} (h : along P f as s = true) (n : Nat) :
    f (path P as s n) = true := by
  induction as generalizing s n with
  | nil => exact h
  | cons a as ih =>
    simp only [along, Bool.and_eq_true] at h
    cases n with
    | zero => exact h.1
    | succ n =>
      obtain ⟨s1, hx, hs⟩ := Option.any_eq_true .. |>.mp h.2
      simp only [path, hx, Option.getD_some]
      exact ih hs n

/-- Fair executions with a condition on the first state, one on the second and one on all. -/
theorem fair_along {P : Params} {pre as : List Act} {f g k : Sys → Bool}
    (h : afterTidy P pre (fun s => f s && settles P as s && as.all noFail && along P k as s &&
      g (path P as s 1)) = true) :
    ∃ e : Exec P, e.Fair ∧ e.writes ∧ (∀ n, e.act n = as[n]?.getD nothing) ∧ f (e.state 0) = true ∧
      g (e.state 1) = true ∧ ∀ n, k (e.state n) = true := by
  obtain ⟨s, hr, hs⟩ := afterTidy_reach h
  simp only [Bool.and_eq_true] at hs
  obtain ⟨⟨⟨⟨h1, h2⟩, h3⟩, h4⟩, h5⟩ := hs
  obtain ⟨e, he, hst, h0, hw, ha⟩ := fair_exists hr h2
  exact ⟨e, he, hw h3, ha, by rw [h0]; exact h1, by rw [hst]; exact h5, fun n => by rw [hst]; exact along_path h4 n⟩

/-! ### C93 -/

/-- C93: when the update ticker fires, dmxUpdateLoop visits every universe, in some order, and if no write fails
every datagram that a tick in that state sends is written, in order. -/
theorem C93_ticked {P : Params} (e : Exec P) (hf : e.Fair) (hw : e.writes) {n i k : Nat}
    (ht : (e.state n).threads[i]? = some (.duWait k)) (ha : e.act n = .run i .tick) :
    ∃ m j order now, n < m ∧ m < j ∧ order.Perm (e.state m).ctrl.output.keys ∧
      (e.state (m + 1)).hist = (e.state m).hist ++ [.tick order now] ∧
      (((e.state m).ctrl.tickOver order now).2.map payload).Sublist
        ((e.state j).wire.drop (e.state m).wire.length) := by
  obtain ⟨m, j, order, now, h1, h2, h3, h4, h5, h6⟩ := e.tick_done hf ht ha
  obtain ⟨os, a1, a2, a3, a4⟩ := runs_between e (Nat.le_of_lt h2) h3 h6
  obtain ⟨os', b1⟩ := e.hist_mono (n := m + 1) (m := j) (by omega)
  rw [h5, a1, List.append_assoc, List.append_cancel_left_eq] at b1
  subst b1
  obtain ⟨j', c1, c2⟩ := written_between e hf hw (Nat.le_of_lt h2) a4
  refine ⟨m, j', order, now, h1, by omega, h4, h5, ?_⟩
  refine List.Sublist.trans ?_ c2
  rw [List.singleton_append, (run_cons _ _ _).2, List.map_append]
  exact List.sublist_append_left _ _

/-- Discovery of a node at 10.0.0.1 with output universe 1, and a goroutine that is about to store a full-on frame. -/
def sampleReady : List Act := sampleDiscover ++ [.call fullOn ⟨0, 1⟩, .run 4 .next, .run 4 .next]

/-- The frame is stored, the update ticker fires one second after the discovery, everything is written. -/
def sampleFollow : List Act :=
  [.run 7 .next, .run 4 .tick, .run 4 (.order [⟨0, 1⟩] second), .run 4 .next, .run 4 .next, .run 4 .next,
    .run 4 .next, .run 4 .next, .run 3 .next, .run 5 .next, .run 1 .next, .run 0 .next, .run 0 .next, .run 0 .next,
    .run 0 .next, .run 0 .next] ++
    List.replicate 12 (.run 2 .next)

/-- A fair execution in which the update ticker fires while a universe is routed. -/
example : ∃ e : Exec sampleController, e.Fair ∧ e.writes ∧ (e.state 1).threads[4]? = some (.duWait 0) ∧
    e.act 1 = .run 4 .tick ∧ ∀ n, (e.state n).ctrl.output.keys = [⟨0, 1⟩] := by
  obtain ⟨e, hf, hw, ha, _, h1, h2⟩ := fair_along (P := sampleController) (f := fun _ => true)
    (g := fun s => s.threads[4]? == some (.duWait 0)) (k := fun s => s.ctrl.output.keys == [⟨0, 1⟩])
    (pre := sampleReady) (as := sampleFollow) (by decide +kernel)
  exact ⟨e, hf, hw, beq_iff_eq.mp h1, ha 1, fun n => beq_iff_eq.mp (h2 n)⟩

/-! ### C94 -/

/-- C94: the data of a call of SendDMXToAddress reaches the node. The call takes effect at `n`, when `a` is routed to
node `r`, which has a buffer for it. The update ticker fires later, at `m`; every tick from then on is late enough
for the data to be due; from then on `a` is routed to `r`; there is no other call for `a`; no write fails. Then an ArtDMX
datagram for `a` with exactly this data is written to the address of `r`. -/
theorem C94_followed {P : Params} (e : Exec P) (hf : e.Fair) (hw : e.writes) {n m q i k : Nat} {d : Arr 512}
    {a : Address} {r : Ref} {b : DmxBuffer}
    (hc : (e.state n).threads[q]? = some (.caller d a)) (hq : e.act n = .run q .next)
    (hr : Routed (e.state n).ctrl a r) (hb : ((e.state n).ctrl.heap r).dmxBuffer.get a = some b)
    (hnm : n < m) (ht : (e.state m).threads[i]? = some (.duWait k)) (ha : e.act m = .run i .tick)
    (hlate : ∀ j order now, .tick order now ∈ (e.state j).hist.drop (e.state m).hist.length →
      Due { b with stale := true } now P.maxFPS)
    (hroute : ∀ j, m ≤ j → Routed (e.state j).ctrl a r)
    (hlast : ∀ j, ∀ o ∈ (e.state j).hist.drop (e.state (n + 1)).hist.length, ¬ SendsTo a o) :
    ∃ j, n ≤ j ∧ ∃ p ∈ (e.state j).wire.drop (e.state n).wire.length,
      p.address = ((e.state n).ctrl.heap r).udpAddress ∧ p.data.length = 530 ∧
      p.data.take 12 = [0x41, 0x72, 0x74, 0x2d, 0x4e, 0x65, 0x74, 0x00, 0x00, 0x50, 0x00, 0x0e] ∧
      byteAt p.data 14 = a.subUni ∧ byteAt p.data 15 = a.net ∧ p.data.drop 18 = d.val := by
  have hx := e.next n
  rw [hq] at hx
  obtain ⟨l0, hh, hctrl, _⟩ := C73_calls hc hx
  obtain ⟨u, v, order, now, h1, h2, h3, h4, h5, h6⟩ := e.tick_done hf ht ha
  have hi := inv_of_free (e.reach n).reach l0
  obtain ⟨os, a1, a2, a3, a4⟩ := runs_between e (n := n) (m := u) (by omega) l0 h3
  obtain ⟨ot, b1, b2, b3, b4⟩ := runs_between e (n := u) (m := v) (by omega) h3 h6
  -- the operations before the tick
  obtain ⟨os', c1⟩ := e.hist_mono (n := n + 1) (m := u) (by omega)
  rw [hh, a1, List.append_assoc, List.append_cancel_left_eq] at c1
  subst c1
  obtain ⟨ot', c2⟩ := e.hist_mono (n := u + 1) (m := v) (by omega)
  rw [h5, b1, List.append_assoc, List.append_cancel_left_eq] at c2
  subst c2
  rw [List.singleton_append] at a1 a2 a3 a4 b1 b2 b3 b4
  have hlt := hi.lt_next r (hi.out a r hr).1
  obtain ⟨f1, _, _, _, f5, f6, _, f8⟩ := sendDMX_frame (e.state n).ctrl d a
  have hb' : (((e.state n).ctrl.sendDMX d a).heap r).dmxBuffer.get a = some { b with data := d, stale := true } := by
    rw [f8, if_pos ⟨hr, rfl⟩, hb]; rfl
  have hi' : Inv ((e.state n).ctrl.sendDMX d a) := hi.sendDMX d a
  have hs : ∀ o ∈ os', ¬ SendsTo a o := by
    intro o ho
    refine hlast u o ?_
    rw [show (e.state u).hist = (e.state (n + 1)).hist ++ os' by rw [hh, a1]; simp, List.drop_left]
    exact ho
  suffices ∃ em ∈ ((e.state n).ctrl.run (.send d a :: os')).2 ++ ((e.state u).ctrl.run (.tick order now :: ot')).2,
      IsDMX em ∧ emAddress em = a ∧ em.address = ((e.state n).ctrl.heap r).udpAddress ∧ emChannels em = d.val by
    obtain ⟨em, hem, g1, g2, g3, g4⟩ := this
    obtain ⟨j, hj, hsub⟩ := written_between e hf hw (n := n) (m := v) (by omega) (by rw [b4, a4, List.append_assoc])
    refine ⟨j, by omega, payload em, hsub.subset (List.mem_map_of_mem hem), g3, g1.1, g1.2.1, ?_, ?_, g4⟩
    · exact congrArg Address.subUni g2
    · exact congrArg Address.net g2
  rw [(run_cons _ _ _).1] at a3
  rw [(run_cons _ _ _).2, (run_cons _ _ _).2]
  rcases sent_or_kept os' _ hi' a2.2 (by rw [f1]; exact hlt) hb' hs with ⟨em, hem, g1, g2, _, g4, g5⟩ | ⟨g1, g2⟩
  · refine ⟨em, List.mem_append_left _ (List.mem_append_right _ hem), g1, g2, ?_, g5⟩
    rw [g4, (f6 r).2.2.1]
  · rw [show (((e.state n).ctrl.sendDMX d a).run os').1 = (e.state u).ctrl from a3] at g1 g2
    have hiu := inv_of_free (e.reach u).reach h3
    have hfps : (e.state u).ctrl.maxFPS = P.maxFPS := by
      obtain ⟨w1, _, w3⟩ := C73_linearizable (e.reach u).reach
      have := run_maxFPS (inv_init P.maxFPS) _ w1
      rw [w3 h3] at this
      exact this
    have hdue : Due (bufferAt ((e.state u).ctrl.heap r) a) now (e.state u).ctrl.maxFPS := by
      rw [bufferAt, g1, hfps]
      obtain ⟨y, hy⟩ := e.hist_mono (n := m) (m := u) (by omega)
      have := hlate (u + 1) order now (by rw [h5, ← hy, List.append_assoc, List.drop_left]; simp)
      exact this
    obtain ⟨x1, x2⟩ := tick_sends _ hiu.wfOut order h4 now a r (hroute u (by omega))
    obtain ⟨em, hem, hea⟩ := x1.mp hdue
    obtain ⟨y1, _, y3, y4⟩ := x2 em hem hea
    refine ⟨em, List.mem_append_right _ (List.mem_append_left _ hem), y1, hea, ?_, ?_⟩
    · rw [y3, g2, (f6 r).2.2.1]
    · rw [y4, bufferAt, g1]; rfl

/-- No call for universe 1 of net 0, and if a tick then one second after the discovery. -/
def sampleLater : Op → Bool
  | .send _ x => x != ⟨0, 1⟩
  | .tick _ now => now == second
  | _ => true

/-- A fair execution with everything that C94 asks for. -/
example : ∃ (e : Exec sampleController) (d : Arr 512) (r : Ref), e.Fair ∧ e.writes ∧
    (e.state 0).threads[7]? = some (.caller d ⟨0, 1⟩) ∧ e.act 0 = .run 7 .next ∧
    Routed (e.state 0).ctrl ⟨0, 1⟩ r ∧ ((e.state 0).ctrl.heap r).dmxBuffer.get ⟨0, 1⟩ = some .zero ∧
    (e.state 1).threads[4]? = some (.duWait 0) ∧ e.act 1 = .run 4 .tick ∧
    (∀ j order now, .tick order now ∈ (e.state j).hist.drop (e.state 1).hist.length →
      Due { DmxBuffer.zero with stale := true } now sampleController.maxFPS) ∧
    (∀ j, 1 ≤ j → Routed (e.state j).ctrl ⟨0, 1⟩ r) ∧
    ∀ j, ∀ o ∈ (e.state j).hist.drop (e.state (0 + 1)).hist.length, ¬ SendsTo ⟨0, 1⟩ o := by
  obtain ⟨e, hf, hw, ha, h0, h1, h2⟩ := fair_along (P := sampleController)
    (f := fun s => (match s.threads[7]? with | some (Thread.caller _ x) => x == ⟨0, 1⟩ | _ => false) &&
      (match (s.ctrl.heap 0).dmxBuffer.get ⟨0, 1⟩ with | some b => b == .zero | _ => false))
    (g := fun s => s.threads[4]? == some (.duWait 0) && s.hist.length == 3)
    (k := fun s => s.ctrl.output.get ⟨0, 1⟩ == some 0 && (s.hist.drop 3).all sampleLater)
    (pre := sampleReady) (as := sampleFollow) (by decide +kernel)
  simp only [Bool.and_eq_true, beq_iff_eq] at h0 h1 h2
  obtain ⟨h3, h4⟩ := h0
  split at h3
  case h_2 => cases h3
  rename_i d x hx
  cases beq_iff_eq.mp h3
  split at h4
  case h_2 => cases h4
  rename_i b hb
  cases beq_iff_eq.mp h4
  refine ⟨e, d, 0, hf, hw, hx, ha 0, (h2 0).1, hb, h1.1, ha 1, ?_, fun j _ => (h2 j).1, ?_⟩
  · intro j order now hm
    rw [h1.2] at hm
    have := List.all_eq_true.mp (h2 j).2 _ hm
    rw [beq_iff_eq.mp this]
    decide
  · intro j o hm hs
    rw [h1.2] at hm
    have := List.all_eq_true.mp (h2 j).2 _ hm
    cases o <;> first | (cases hs; done) | skip
    rw [show _ = _ from hs] at this
    simp [sampleLater] at this

end Verif.Props
