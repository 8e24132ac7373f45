import Verif.Props.Arrival
import Verif.Props.Race
import Verif.Props.Exact
import Verif.Props.Lonely
/-
Which systems have the properties C78, C124 and C125.
-/
namespace Verif.Props
open Spec Packet Code Artnet Conc

/-! ### C124 -/

/-- Two ArtPoll datagrams from `src` are read by goroutine `i`, and the goroutine that was started for the second one is
faster. -/
def overtaking (i : Nat) (src : Bytes) : List Act := [.start, .listen true, .run 1 .next, .run 2 .next] ++
  sampleRead i ⟨src, 6454⟩ samplePoll ++ sampleRead i ⟨src, 6454⟩ samplePoll2 ++ [.run (i + 2) .next, .run (i + 1) .next]

def Overtaken (s : Sys) : Bool := !((s.calls.map (·.2)).isSublist (s.accepted.filterMap decode))

/-- Whether it happens to the system. -/
def overtaken (Q : Params) (ip : Arr 4) : Bool :=
  (neutrally ip.val Q (Sys.init Q) (overtaking (if Q.controller then 5 else 3) ip.val)).any Overtaken

/-- A Controller of another style. -/
def sampleOdd : Params := { sampleController with config := { sampleController.config with type := StyleCode.stNode } }

theorem overtaken_all : ∀ Q ∈ [sampleNode, sampleLonely, sampleController, sampleOdd], ∀ ip ∈ [ipA, ipB],
    overtaken Q ip = true ∧ ipEqual Q.localIP ip.val = false := by decide +kernel

/-- A system that cannot be started does nothing. -/
theorem unheard {P : Params} (hv : ¬ ValidConfig P.config) {s : Sys} (h : Reach P s) :
    s.calls = [] ∧ s.arrived = [] ∧ s.accepted = [] ∧ s.wire = [] ∧ s.emitted = [] ∧ s.ctrl.nodes = [] ∧
    s.ctrl.output = [] := by
  refine Reach.inductExec (P := P) (I := fun s => s.calls = [] ∧ s.arrived = [] ∧ s.accepted = [] ∧ s.wire = [] ∧
    s.emitted = [] ∧ s.ctrl.nodes = [] ∧ s.ctrl.output = []) ⟨rfl, rfl, rfl, rfl, rfl, rfl, rfl⟩ ?_ h
  intro s s' a hr ih hx
  have hcr := (exec_Step hx).1
  obtain ⟨hc, ht⟩ := unstarted hv hr
  obtain ⟨g1, g2, g3, g4, g5, g6, g7⟩ := ih
  cases a with
  | run i c =>
    cases hi : s.threads[i]? with
    | none =>
      unfold Sys.exec at hx
      simp [hcr, hi] at hx
    | some t =>
      rw [exec_run hcr hi] at hx
      rcases ht t (List.mem_of_getElem? hi) with rfl | ⟨d, a, rfl⟩
      · cases c <;> cases hx
      · cases c <;> simp only [Sys.step] at hx <;> try cases hx
        split at hx
        · cases hx
        · cases hx
          refine ⟨g1, g2, g3, g4, g5, ?_, ?_⟩
          · simp only [Sys.goto, Ctrl.sendDMX, g7]
            exact g6
          · simp only [Sys.goto, Ctrl.sendDMX, g7]
            exact g7
  | listen ok =>
    unfold Sys.exec at hx
    simp only [hcr, Option.isSome_none, Bool.false_eq_true, if_false] at hx
    rw [if_pos hc] at hx
    cases hx
  | start | stop | stopStep | register | deregister | call =>
    unfold Sys.exec at hx
    simp only [hcr, Option.isSome_none, Bool.false_eq_true, if_false, Sys.panic, Sys.resetTables, Sys.makeChannels] at hx
    (repeat' split at hx) <;> first | (cases hx; done) | (cases hx; exact ⟨g1, g2, g3, g4, g5, g6, g7⟩) |
      (cases hx; exact ⟨g1, g2, g3, g4, g5, g6, rfl⟩)

theorem other_ip (P : Params) : ∃ ip ∈ [ipA, ipB], ipEqual P.localIP ip.val = false := by
  cases h1 : ipEqual P.localIP ipA.val with
  | false => exact ⟨ipA, by simp, h1⟩
  | true =>
    cases h2 : ipEqual P.localIP ipB.val with
    | false => exact ⟨ipB, by simp, h2⟩
    | true => exact absurd (ipEqual_v4 ipA.len ipB.len h1 h2) (by decide)

/-- Every system that can be started does as one of the samples does. -/
theorem sample_for (P : Params) : ∃ Q ∈ [sampleNode, sampleLonely, sampleController, sampleOdd],
    ∃ ip ∈ [ipA, ipB], (P.config.type = StyleCode.stController ↔ Q.config.type = StyleCode.stController) ∧
      P.controller = Q.controller ∧ Q.config.validate = .ok none ∧ ipEqual P.localIP ip.val = false := by
  obtain ⟨ip, hip, he⟩ := other_ip P
  have hval : ∀ Q ∈ [sampleNode, sampleLonely, sampleController, sampleOdd], Q.config.validate = .ok none := by
    intro Q hQ
    refine valid_ok ?_
    simp only [List.mem_cons, List.not_mem_nil, or_false] at hQ
    rcases hQ with rfl | rfl | rfl | rfl <;> exact ⟨by decide, by decide, fun i a b ha => by cases ha⟩
  have h : ∃ Q ∈ [sampleNode, sampleLonely, sampleController, sampleOdd],
      (P.config.type = StyleCode.stController ↔ Q.config.type = StyleCode.stController) ∧ P.controller = Q.controller := by
    by_cases ht : P.config.type = StyleCode.stController <;> cases hc : P.controller
    · exact ⟨sampleLonely, by simp, iff_of_true ht rfl, rfl⟩
    · exact ⟨sampleController, by simp, iff_of_true ht rfl, rfl⟩
    · exact ⟨sampleNode, by simp, iff_of_false ht (by decide), rfl⟩
    · exact ⟨sampleOdd, by simp, iff_of_false ht (by decide), rfl⟩
  obtain ⟨Q, hQ, h1, h2⟩ := h
  exact ⟨Q, hQ, ip, hip, h1, h2, hval Q hQ, he⟩

/-- C124 holds of the systems that cannot be started, and of no others. -/
theorem C124_exact (P : Params) :
    (∀ s, TidyReach P s → (s.calls.map (·.2)).Sublist (s.accepted.filterMap decode)) ↔ ¬ ValidConfig P.config := by
  refine ⟨fun h hv => ?_, fun hv s hr => ?_⟩
  · obtain ⟨Q, hQ, ip, hip, h1, h2, h3, h4⟩ := sample_for P
    obtain ⟨ho, hq⟩ := overtaken_all Q hQ ip hip
    obtain ⟨s, hs, hf⟩ := Option.any_eq_true .. |>.mp ho
    obtain ⟨x, hx⟩ := neutrally_tidy (P := P) (Q := Q) h1 (h4.trans hq.symm) h2 (valid_ok hv) h3 (s := Sys.init Q)
      (x := Ctrl.init P.maxFPS) (.init (P := P)) hs
    have := h _ hx
    simp only [Overtaken, List.isSublist_iff_sublist.mpr this] at hf
    cases hf
  · rw [(unheard hv hr.reach).1]
    exact List.nil_sublist _

/-! ### C78 -/

/-- C78 holds of the Nodes that cannot be started, and of no other systems. -/
theorem C78_exact (P : Params) : (∀ (s : Sys) (a : Act), Reach P s → ¬ Race P s a) ↔
    (P.controller = false ∧ ¬ ValidConfig P.config) := by
  refine ⟨fun h => ?_, ?_⟩
  · cases hc : P.controller with
    | false =>
      refine ⟨rfl, fun hv => ?_⟩
      have hr := valid_ok hv
      have hx : ∃ s, (Sys.init P).execs P [.start, .listen true, .stop, .stopStep, .stopStep] = some s ∧
          s.threads[2]? = some .slTop ∧ ∃ s', s.exec P .start = some s' := by
        simp [Sys.execs, Sys.exec, Sys.init, hc, hr, Sys.makeChannels, Params.goroutines,
          Chans.make, Sys.closeConn]
      obtain ⟨s, hx, ht, s', he⟩ := hx
      exact h s .start ⟨_, hx⟩ ⟨s', .channels, 2, _, he, by simp [Act.assigns, hr], ht, by simp [Thread.uses]⟩
    | true =>
      obtain ⟨r, hr, _⟩ := C32_validate P.config
      have hx : ∃ s, (Sys.init P).execs P [.call fullOn ⟨0, 1⟩] = some s ∧
          s.threads[0]? = some (.caller fullOn ⟨0, 1⟩) ∧ ∃ s', s.exec P .start = some s' := by
        cases r <;>
        simp [Sys.execs, Sys.exec, Sys.init, hc, hr, Sys.resetTables, Sys.makeChannels]
      obtain ⟨s, hx, ht, s', he⟩ := hx
      exact absurd ⟨s', .tables, 0, _, he, by simp [Act.assigns, hc], ht, by simp [Thread.uses]⟩ (h s .start ⟨_, hx⟩)
  · rintro ⟨hc, hv⟩ s a hr ⟨s', f, i, t, hx, hf, hi, hu⟩
    rcases (unstarted hv hr).2 t (List.mem_of_getElem? hi) with rfl | ⟨d, b, rfl⟩
    · cases hu
    · simp only [Thread.uses, List.mem_singleton] at hu
      subst hu
      revert hf
      unfold Act.assigns
      split
      · simp only [hc, Bool.false_eq_true, if_false, List.nil_append]
        split <;> simp
      · simp
      · split <;> simp
      · split <;> simp
      · simp

/-! ### C125 -/

/-- A node announces universe 1 and then universe 2, and the goroutine for the second announcement is faster. -/
def staling (ip : Arr 4) : List Act := [.start, .listen true, .run 1 .next, .run 2 .next] ++
  sampleRead 5 ⟨ip.val, 6454⟩ (pollReplyImage { replyOf ip 1 with port := 6454 }) ++
  sampleRead 5 ⟨ip.val, 6454⟩ (pollReplyImage { replyOf ip 2 with port := 6454 }) ++
  [.run 7 .next, .run 7 .next, .run 7 .next, .run 6 .next, .run 6 .next, .run 6 .next]

def Staled (s : Sys) : Bool := s.crashed == none && s.cur == some 0 && s.ccur == some 0 && !s.lock && (s.hist.filterMap Op.announced).isEmpty &&
  s.threads[3]? == some .plSendTop &&
  (match s.chans[0]? with
   | some ch => ch.send.isEmpty && ch.poll.isEmpty && (match ch.pollReply with
     | [a, b] => !([a, b].isSublist (s.accepted.filterMap announcement))
     | _ => false)
   | _ => false)

theorem staled_all : ∀ ip ∈ [ipA, ipB],
    (neutrally ip.val sampleController (Sys.init sampleController) (staling ip)).any Staled = true ∧
    ipEqual sampleController.localIP ip.val = false := by decide +kernel

/-- pollLoop processes the announcement at the head of pollReplyCh. -/
theorem learn {P : Params} {s : Sys} {i g k : Nat} {ch : Chans} {p : ArtPollReply} {q : List ArtPollReply}
    (h1 : s.crashed = none) (h2 : s.cur = some g) (h3 : s.ccur = some k) (h4 : s.lock = false)
    (h5 : s.threads[i]? = some .plTop) (h6 : s.chans[g]? = some ch) (h7 : ch.pollReply = p :: q) :
    ∃ s', s.execs P [.run i .next, .run i .next, .run i (.at 0)] = some s' ∧ s'.crashed = none ∧ s'.cur = some g ∧
      s'.ccur = some k ∧ s'.lock = false ∧ s'.threads[i]? = some .plTop ∧
      s'.chans[g]? = some { ch with pollReply := q } ∧ s'.hist = s.hist ++ [.reply p 0] ∧ s'.accepted = s.accepted := by
  have hl : i < s.threads.length := (List.getElem?_eq_some_iff.mp h5).1
  have hg : g < s.chans.length := (List.getElem?_eq_some_iff.mp h6).1
  have e1 : s.exec P (.run i .next) = some (s.goto i (.plWait g k)) := by
    rw [exec_run h1 h5]
    simp only [Sys.step, h2, h3]
  have e2 : (s.goto i (.plWait g k)).exec P (.run i .next) =
      some (({ s.goto i (.plWait g k) with chans := s.chans.set g { ch with pollReply := q } } : Sys).goto i (.plGot p)) := by
    rw [exec_run (s := s.goto i (.plWait g k)) (t := .plWait g k) h1 (by simp [Sys.goto, hl])]
    simp only [Sys.step, Sys.goto, h6, h7]
  generalize hs2 : (({ s.goto i (.plWait g k) with chans := s.chans.set g { ch with pollReply := q } } : Sys).goto i
    (.plGot p)) = s2 at e2
  have f1 : s2.crashed = none := by rw [← hs2]; exact h1
  have f2 : s2.cur = some g := by rw [← hs2]; exact h2
  have f3 : s2.ccur = some k := by rw [← hs2]; exact h3
  have f4 : s2.lock = false := by rw [← hs2]; exact h4
  have f5 : s2.threads[i]? = some (.plGot p) := by rw [← hs2]; simp [Sys.goto, hl]
  have f6 : s2.chans[g]? = some { ch with pollReply := q } := by rw [← hs2]; simp [Sys.goto, hg]
  have f7 : s2.hist = s.hist := by rw [← hs2]; rfl
  have f8 : s2.accepted = s.accepted := by rw [← hs2]; rfl
  have hl2 : i < s2.threads.length := (List.getElem?_eq_some_iff.mp f5).1
  have e3 : ∃ s3, s2.exec P (.run i (.at 0)) = some s3 ∧ s3.crashed = none ∧ s3.cur = some g ∧
      s3.ccur = some k ∧ s3.lock = false ∧ s3.threads[i]? = some .plTop ∧
      s3.chans[g]? = some { ch with pollReply := q } ∧ s3.hist = s.hist ++ [.reply p 0] ∧ s3.accepted = s.accepted := by
    rw [exec_run f1 f5, ← f7, ← f8]
    simp only [Sys.step, f4]
    split
    · exact ⟨_, rfl, f1, f2, f3, rfl, by simp [Sys.goto, hl2], f6, rfl, rfl⟩
    · exact ⟨_, rfl, f1, f2, f3, rfl, by simp [Sys.goto, hl2], f6, rfl, rfl⟩
  obtain ⟨s3, e3, hs3⟩ := e3
  refine ⟨s3, ?_, hs3⟩
  simp only [Sys.execs, e1, e2, e3]

/-- pollLoop begins with an ArtPoll of its own. -/
theorem begins {P : Params} {s : Sys} {i g : Nat} {ch : Chans} (h1 : s.crashed = none) (h2 : s.cur = some g)
    (h5 : s.threads[i]? = some .plSendTop) (h6 : s.chans[g]? = some ch) (h7 : ch.send = []) (h8 : ch.poll = []) :
    ∃ s' ch', s.execs P [.run i .next, .run i .next, .run i .next, .run i .next] = some s' ∧ s'.crashed = none ∧
      s'.cur = some g ∧ s'.ccur = s.ccur ∧ s'.lock = s.lock ∧ s'.threads[i]? = some .plTop ∧ s'.chans[g]? = some ch' ∧
      ch'.pollReply = ch.pollReply ∧ s'.hist = s.hist ∧ s'.accepted = s.accepted ∧ s'.ctrl = s.ctrl := by
  have hl : i < s.threads.length := (List.getElem?_eq_some_iff.mp h5).1
  have hg : g < s.chans.length := (List.getElem?_eq_some_iff.mp h6).1
  obtain ⟨s1, hs1⟩ : ∃ s1, s1 = s.goto i (.plSend g) := ⟨_, rfl⟩
  have e1 : s.exec P (.run i .next) = some s1 := by
    rw [exec_run h1 h5, hs1]
    simp only [Sys.step, h2, Option.map_some]
  have t1 : s1.threads[i]? = some (.plSend g) := by rw [hs1]; simp [Sys.goto, hl]
  have c1 : s1.crashed = none := by rw [hs1]; exact h1
  have e2 : ∃ s2 ch', s1.exec P (.run i .next) = some s2 ∧ s2.crashed = none ∧ s2.cur = some g ∧ s2.ccur = s.ccur ∧
      s2.lock = s.lock ∧ s2.threads[i]? = some .plPollTop ∧ s2.chans[g]? = some ch' ∧
      ch'.pollReply = ch.pollReply ∧ ch'.poll = [] ∧ s2.hist = s.hist ∧ s2.accepted = s.accepted ∧ s2.ctrl = s.ctrl := by
    rw [exec_run c1 t1, hs1]
    simp only [Sys.step, Sys.goto, Sys.comm, h6, Chans.pushSend, h7, capacity, List.length_nil]
    exact ⟨_, _, rfl, h1, h2, rfl, rfl, by simp [hl], List.getElem?_set_self hg, rfl, h8, rfl, rfl, rfl⟩
  obtain ⟨s2, ch', e2, c2, u2, v2, w2, t2, g2, r2, p2, x2, y2, z2⟩ := e2
  have hl2 : i < s2.threads.length := (List.getElem?_eq_some_iff.mp t2).1
  have hg2 : g < s2.chans.length := (List.getElem?_eq_some_iff.mp g2).1
  obtain ⟨s3, hs3⟩ : ∃ s3, s3 = s2.goto i (.plPoll g) := ⟨_, rfl⟩
  have e3 : s2.exec P (.run i .next) = some s3 := by
    rw [exec_run c2 t2, hs3]
    simp only [Sys.step, u2, Option.map_some]
  have t3 : s3.threads[i]? = some (.plPoll g) := by rw [hs3]; simp [Sys.goto, hl2]
  have c3 : s3.crashed = none := by rw [hs3]; exact c2
  have e4 : ∃ s4 ch'', s3.exec P (.run i .next) = some s4 ∧ s4.crashed = none ∧ s4.cur = some g ∧ s4.ccur = s.ccur ∧
      s4.lock = s.lock ∧ s4.threads[i]? = some .plTop ∧ s4.chans[g]? = some ch'' ∧
      ch''.pollReply = ch.pollReply ∧ s4.hist = s.hist ∧ s4.accepted = s.accepted ∧ s4.ctrl = s.ctrl := by
    rw [exec_run c3 t3, hs3]
    simp only [Sys.step, Sys.goto, Sys.comm, g2, Chans.pushPoll, p2, capacity, List.length_nil]
    exact ⟨_, _, rfl, c2, u2, v2, w2, by simp [hl2], List.getElem?_set_self hg2, r2, x2, y2, z2⟩
  obtain ⟨s4, ch'', e4, h4⟩ := e4
  refine ⟨s4, ch'', ?_, h4⟩
  simp only [Sys.execs, e1, e2, e3, e4]

/-- Then pollLoop processes the two announcements in the wrong order. -/
theorem Staled.next {P : Params} {s : Sys} (h : Staled s = true) : ∃ as s', s.execs P as = some s' ∧
    (∀ a ∈ as, a.quiet = true) ∧ ¬ (s'.hist.filterMap Op.announced).Sublist (s'.accepted.filterMap announcement) := by
  simp only [Staled, Bool.and_eq_true, beq_iff_eq, Bool.not_eq_true', List.isEmpty_iff] at h
  obtain ⟨⟨⟨⟨⟨⟨h1, h2⟩, h3⟩, h4⟩, h5⟩, h6⟩, h7⟩ := h
  split at h7
  case h_2 => cases h7
  rename_i ch h8
  simp only [Bool.and_eq_true, List.isEmpty_iff] at h7
  obtain ⟨⟨h9, h10⟩, h11⟩ := h7
  split at h11
  case h_2 => cases h11
  rename_i a b h12
  rw [Bool.not_eq_true', ← Bool.not_eq_true, List.isSublist_iff_sublist] at h11
  obtain ⟨s1, ch1, e1, c1, u1, v1, w1, t1, g1, r1, x1, y1, _⟩ := begins (P := P) h1 h2 h6 h8 h9 h10
  obtain ⟨s2, e2, c2, u2, v2, w2, t2, g2, x2, y2⟩ := learn (P := P) c1 u1 (v1.trans h3) (w1.trans h4) t1 g1 (r1.trans h12)
  obtain ⟨s3, e3, c3, u3, v3, w3, t3, g3, x3, y3⟩ := learn (P := P) c2 u2 v2 w2 t2 g2 rfl
  have join : ∀ {s s1 s2 : Sys} {as bs : List Act}, s.execs P as = some s1 → s1.execs P bs = some s2 →
      s.execs P (as ++ bs) = some s2 := fun h1 h2 => by rw [execs_append, h1]; exact h2
  have e5 := join (join e1 e2) e3
  refine ⟨_, s3, e5, by decide, ?_⟩
  rw [x3, x2, x1, y3, y2, y1, List.filterMap_append, List.filterMap_append, h5]
  exact h11

/-- The goroutine has no announcement in hand. -/
def deaf : Thread → Bool
  | .hReplyTop _ | .hReply _ _ | .plGot _ => false
  | _ => true

theorem deaf_set {s : Sys} {i : Nat} {t : Thread} (h : ∀ u ∈ s.threads, deaf u = true) (ht : deaf t = true) :
    ∀ u ∈ (s.goto i t).threads, deaf u = true := by
  intro u hu
  rcases List.mem_or_eq_of_mem_set hu with hu | rfl
  · exact h u hu
  · exact ht

theorem deaf_move {P : Params} {s : Sys} {t t' : Thread} (m : Move P s t t') (h : deaf t = true) : deaf t' = true := by
  cases m <;> first | rfl | cases h

/-- Without the style StController, without a Controller or without a valid configuration, no announcement reaches
pollLoop. -/
theorem unasked {P : Params} (hP : P.controller = false ∨ P.config.type ≠ StyleCode.stController ∨ ¬ ValidConfig P.config)
    {s : Sys} (hr : Reach P s) (p : ArtPollReply) : .plGot p ∉ s.threads := by
  intro hp
  rcases hP with hP | hP | hP
  · have := (threads_ok hr _ hp).2 rfl
    rw [hP] at this
    cases this
  · have : (∀ t ∈ s.threads, deaf t = true) ∧ ∀ c ∈ s.chans, c.pollReply = [] := by
      refine Reach.induct (P := P) (I := fun s => (∀ t ∈ s.threads, deaf t = true) ∧ ∀ c ∈ s.chans, c.pollReply = [])
        ⟨nofun, nofun⟩ ?_ hr
      rintro s s' hr ⟨h1, h2⟩ _ hst
      have hset : ∀ {g : Nat} {ch ch' : Chans}, s.chans[g]? = some ch → ch'.pollReply = ch.pollReply →
          ∀ c ∈ s.chans.set g ch', c.pollReply = [] := by
        intro g ch ch' hg hch c hc
        rcases List.mem_or_eq_of_mem_set hc with hc | rfl
        · exact h2 c hc
        · rw [hch]; exact h2 _ (List.mem_of_getElem? hg)
      cases hst with
      | move ht m => exact ⟨deaf_set h1 (deaf_move m (h1 _ (List.mem_of_getElem? ht))), h2⟩
      | popReply ht hg hq =>
        rw [h2 _ (List.mem_of_getElem? hg)] at hq
        cases hq
      | pushReply ht => exact absurd (h1 _ (List.mem_of_getElem? ht)) nofun
      | popPoll ht hg | popSend ht hg | popRecv ht hg | pushDmx ht hg | pushRecv ht hg | pushPoll ht hg | pushOwn ht hg =>
        exact ⟨deaf_set (s := s) h1 rfl, hset hg rfl⟩
      | pushSend ht k hg => exact ⟨deaf_set (s := s) h1 (by cases k <;> rfl), hset hg rfl⟩
      | close _ _ hg => exact ⟨h1, hset hg rfl⟩
      | spawnReader | spawnHandler =>
        refine ⟨fun t ht => ?_, h2⟩
        rcases List.mem_append.mp ht with ht | ht
        · exact deaf_set h1 rfl t ht
        · rw [List.mem_singleton.mp ht]; rfl
      | spawnCaller =>
        refine ⟨fun t ht => ?_, h2⟩
        rcases List.mem_append.mp ht with ht | ht
        · exact h1 t ht
        · rw [List.mem_singleton.mp ht]; rfl
      | call ht hh hc =>
        refine ⟨deaf_set (s := s) h1 ?_, h2⟩
        cases hc with
        | reply h => exact absurd h hP
        | _ => rfl
      | listen =>
        refine ⟨fun t ht => ?_, h2⟩
        rcases List.mem_append.mp ht with ht | ht
        · exact h1 t ht
        · have : ∀ t ∈ P.goroutines, deaf t = true := by
            unfold Params.goroutines
            split <;> decide
          exact this t ht
      | startPanic | startFail =>
        simp only [Sys.reset, Sys.panic, Sys.resetTables]
        split <;> exact ⟨h1, h2⟩
      | start =>
        simp only [Sys.reset, Sys.makeChannels, Sys.resetTables]
        have h3 : ∀ c ∈ s.chans ++ [Chans.make], c.pollReply = [] := by
          intro c hc
          rcases List.mem_append.mp hc with hc | hc
          · exact h2 c hc
          · rw [List.mem_singleton.mp hc]; rfl
        split <;> exact ⟨h1, h3⟩
      | panic | listenFail | stop | disconnectC | disconnect | ended | register | deregister | noRegister => exact ⟨h1, h2⟩
      | _ => exact ⟨deaf_set (s := s) h1 rfl, h2⟩
    exact absurd (this.1 _ hp) nofun
  · rcases (unstarted hP hr).2 _ hp with h | ⟨d, a, h⟩ <;> cases h

/-- Then none is processed. -/
theorem unlearned {P : Params} (hP : P.controller = false ∨ P.config.type ≠ StyleCode.stController ∨ ¬ ValidConfig P.config)
    {s : Sys} (h : Reach P s) : s.hist.filterMap Op.announced = [] := by
  refine Reach.induct (P := P) (I := fun s => s.hist.filterMap Op.announced = []) rfl ?_ h
  intro s s' hr ih _ hst
  cases hst with
  | ignore ht | reply ht => exact absurd (List.mem_of_getElem? ht) (unasked hP hr _)
  | gc | lock | sendDMX => simpa [Sys.goto, Op.announced] using ih
  | startPanic | startFail | start =>
    simp only [Sys.reset, Sys.panic, Sys.makeChannels, Sys.resetTables]
    split
    · simpa [Op.announced] using ih
    · exact ih
  | _ => exact ih

/-- C125 holds of Nodes, of systems of another style than StController, and of those that cannot be started. -/
theorem C125_exact (P : Params) :
    (∀ s, TidyReach P s → (s.hist.filterMap Op.announced).Sublist (s.accepted.filterMap announcement)) ↔
    (P.controller = false ∨ P.config.type ≠ StyleCode.stController ∨ ¬ ValidConfig P.config) := by
  constructor
  · intro h
    refine Classical.byContradiction fun hn => ?_
    simp only [not_or, ne_eq, Classical.not_not, Bool.not_eq_false] at hn
    obtain ⟨hc, ht, hv⟩ := hn
    obtain ⟨ip, hip, he⟩ := other_ip P
    obtain ⟨ho, hq⟩ := staled_all ip hip
    obtain ⟨s, hs, hf⟩ := Option.any_eq_true .. |>.mp ho
    obtain ⟨x, hx⟩ := neutrally_tidy (P := P) (Q := sampleController) (iff_of_true ht rfl) (he.trans hq.symm) hc (valid_ok hv)
      (valid_ok ⟨by decide, by decide, fun i a b ha => by cases ha⟩) (s := Sys.init sampleController)
      (x := Ctrl.init P.maxFPS) (.init (P := P)) hs
    obtain ⟨as, s', ha, hqa, hn⟩ := Staled.next (P := P) (s := { s with ctrl := x }) hf
    exact hn (h s' (hx.quiet hqa ha))
  · intro hP s hr
    rw [unlearned hP hr.reach]
    exact List.nil_sublist _

end Verif.Props
