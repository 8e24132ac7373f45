import Verif.Lemmas.Neutral
import Verif.Props.Fair
import Verif.Props.Net
/-
Which systems are free of deadlock: C77, C88.
-/
namespace Verif.Props
open Spec Packet Code Artnet Conc

/-- Eleven ArtPollReply packets from `ip` arrive and are handled by the goroutines 4 to 14; then recvLoop, sendLoop and the
reader wait. -/
def lonelyReplies (ip : Arr 4) : List Act := [.start, .listen true, .run 1 .next, .run 2 .next] ++
  ((List.range 11).flatMap fun k =>
    sampleRead 3 ⟨ip.val, 6454⟩ (pollReplyImage { replyOf ip 1 with port := 6454 }) ++
      [.run (4 + k) .next, .run (4 + k) .next] ++ (if k < 10 then [.run (4 + k) .next] else [])) ++
  [.run 3 .next, .run 1 .next]

/-- The state they lead to. -/
def Full (s : Sys) : Bool := s.crashed == none && s.phase == .started && s.conns.getLast? == some true &&
  s.control == .idle && !s.shutdown && s.cur == some 0 && s.threads[0]? == some .prInit &&
  (match s.threads[14]? with | some (Thread.hReply 0 _) => true | _ => false) &&
  (match s.chans[0]? with | some ch => decide (ch.pollReply.length = capacity) && ch.poll.isEmpty && !ch.down | _ => false) &&
  still { s with threads := s.threads.set 0 .done }

theorem lonely_full (ip : Arr 4) (hip : ip = ipA ∨ ip = ipB) :
    (neutrally ip.val sampleLonely (Sys.init sampleLonely) (lonelyReplies ip)).any Full = true := by
  rcases hip with rfl | rfl <;> decide +kernel

theorem lonely_valid : sampleLonely.config.validate = .ok none := by
  obtain ⟨r, hr, hv⟩ := C32_validate sampleLonely.config
  rw [hr, hv.mpr ⟨by decide, by decide, fun i a b ha => by cases ha⟩]

/-- Every Node of style StController with a valid configuration gets there. -/
theorem lonely_reach {P : Params} (hP : P.controller = false) (ht : P.config.type = StyleCode.stController)
    (hv : ValidConfig P.config) : ∃ s, TidyReach P s ∧ Full s = true := by
  obtain ⟨r, hr, hvr⟩ := C32_validate P.config
  cases hvr.mpr hv
  have hip : ∃ ip, (ip = ipA ∨ ip = ipB) ∧ ipEqual P.localIP ip.val = false := by
    cases h1 : ipEqual P.localIP ipA.val with
    | false => exact ⟨ipA, .inl rfl, h1⟩
    | true =>
      cases h2 : ipEqual P.localIP ipB.val with
      | false => exact ⟨ipB, .inr rfl, h2⟩
      | true => exact absurd (ipEqual_v4 ipA.len ipB.len h1 h2) (by decide)
  obtain ⟨ip, hip, he⟩ := hip
  obtain ⟨s, hs, hf⟩ := Option.any_eq_true .. |>.mp (lonely_full ip hip)
  have hq : ipEqual sampleLonely.localIP ip.val = false := by
    rcases hip with rfl | rfl <;> decide +kernel
  obtain ⟨x, hx⟩ := neutrally_tidy (P := P) (Q := sampleLonely) (by rw [ht]; exact iff_of_true rfl rfl)
    (he.trans hq.symm) hP hr lonely_valid (s := Sys.init sampleLonely) (x := Ctrl.init P.maxFPS) (.init (P := P)) hs
  exact ⟨_, hx, hf⟩

/-- A session is on only if the configuration is valid. -/
theorem on_valid {P : Params} {s : Sys} (h : Reach P s) (hon : s.phase = .started) : ValidConfig P.config := by
  have key : s.phase = .started → P.config.validate = .ok none := by
    refine Reach.induct (P := P) (I := fun s => s.phase = .started → P.config.validate = .ok none) nofun ?_ h
    intro s s' _ ih _ hst
    cases hst with
    | start _ hv => exact fun _ => hv
    | startPanic | startFail =>
      simp only [Sys.reset, Sys.panic, Sys.resetTables]
      split <;> exact ih
    | stop | disconnect | ended => nofun
    | _ => exact ih
  obtain ⟨r, hr, hv⟩ := C32_validate P.config
  rw [key hon] at hr
  exact hv.mp (Except.ok.inj hr).symm

/-- Nobody receives from the pollReplyCh of a Node: a handler that waits there for room waits for ever. -/
theorem stuck_forever {P : Params} {s : Sys} (hP : P.controller = false) (hr : Reach P s) {p : ArtPollReply}
    (hs : ReplyStuck 14 p s) {as : List Act} {s' : Sys} (he : s.execs P as = some s') (c : Choice) :
    s'.exec P (.run 14 c) = none := by
  induction as generalizing s with
  | nil =>
    obtain rfl : s = s' := Option.some.inj he
    cases hx : s.exec P (.run 14 c) with
    | none => rfl
    | some s2 =>
      have hcr := (exec_Step hx).1
      rw [exec_run hcr hs.thr] at hx
      obtain ⟨c0, h0, hfull⟩ := hs.full
      cases step_Run hx with
      | move m _ => cases m
      | pushSend k _ _ => cases k
      | pushReply hg hl =>
        rw [h0] at hg
        cases hg
        omega
      | panic =>
        cases c <;> simp only [Sys.step, Sys.comm, h0, Chans.pushReply] at hx <;> try cases hx
        rw [if_neg (by omega)] at hx
        cases hx
  | cons a as ih =>
    simp only [Sys.execs] at he
    cases hx : s.exec P a with
    | none => rw [hx] at he; cases he
    | some s1 =>
      rw [hx] at he
      exact ih (hr.exec hx) (replyStuck_step hr hP hs (exec_Step hx).2) he

theorem Full.stuck {s : Sys} (h : Full s = true) : s.crashed = none ∧ s.on ∧ ∃ p, ReplyStuck 14 p s := by
  simp only [Full, Bool.and_eq_true, beq_iff_eq] at h
  obtain ⟨⟨⟨⟨⟨⟨⟨⟨⟨h1, h2⟩, h3⟩, _⟩, _⟩, _⟩, _⟩, h8⟩, h9⟩, _⟩ := h
  refine ⟨h1, ⟨h2, h3⟩, ?_⟩
  split at h8
  case h_2 => cases h8
  rename_i p ht
  split at h9
  case h_2 => cases h9
  rename_i ch hc
  simp only [Bool.and_eq_true, decide_eq_true_eq] at h9
  exact ⟨p, ht, ch, hc, by omega⟩

/-! ### C77 -/

/-- C77, which systems have the property: all but the Nodes of style StController (with a configuration that can be
started) that do not belong to a Controller. -/
theorem C77_exact (P : Params) :
    (∀ s : Sys, TidyReach P s → s.crashed = none → s.on →
      ∀ (i : Nat) (t : Thread), s.threads[i]? = some t → t.resting = false →
        ∃ as s' c s'', s.execs P as = some s' ∧ s'.threads[i]? = some t ∧ s'.exec P (.run i c) = some s'') ↔
    (P.controller = true ∨ P.config.type ≠ StyleCode.stController ∨ ¬ ValidConfig P.config) := by
  constructor
  · intro h
    refine Classical.byContradiction fun hn => ?_
    simp only [not_or, ne_eq, Decidable.not_not, Bool.not_eq_true] at hn
    obtain ⟨s, hr, hf⟩ := lonely_reach hn.1 hn.2.1 (Classical.not_not.mp hn.2.2)
    obtain ⟨h1, h2, p, hs⟩ := Full.stuck hf
    obtain ⟨as, s', c, s'', he, _, hx⟩ := h s hr h1 h2 14 _ hs.thr rfl
    rw [stuck_forever hn.1 hr.reach hs he c] at hx
    cases hx
  · intro hP s hr hcr hon i t ht hw
    have hP' : P.controller = true ∨ P.config.type ≠ StyleCode.stController := by
      rcases hP with h | h | h
      · exact .inl h
      · exact .inr h
      · exact absurd (on_valid hr.reach hon.1) h
    obtain ⟨as, s', c, s'', _, h1, h2, _, h3⟩ := C77_partial hr hcr hon hP' ht hw
    exact ⟨as, s', c, s'', h1, h2, h3⟩

/-- The same Node has the property with one style and lacks it with another. -/
example : ValidConfig sampleLonely.config ∧ sampleLonely.controller = false ∧
    sampleLonely.config.type = StyleCode.stController ∧
    ({ sampleLonely with config := { sampleLonely.config with type := StyleCode.stNode } } : Params).config.type ≠
      StyleCode.stController := by
  refine ⟨⟨by decide, by decide, fun i a b ha => by cases ha⟩, rfl, rfl, by decide⟩

/-! ### C88 -/

/-- C88, which systems have the property: the same. -/
theorem C88_exact (P : Params) :
    (∀ e : Exec P, e.Fair → ∀ (n i : Nat) (t : Thread),
      (e.state n).threads[i]? = some t → t.resting = false → ∃ m, n ≤ m ∧ (e.state m).threads[i]? ≠ some t) ↔
    (P.controller = true ∨ P.config.type ≠ StyleCode.stController ∨ ¬ ValidConfig P.config) := by
  constructor
  · intro h
    refine Classical.byContradiction fun hn => ?_
    simp only [not_or, ne_eq, Decidable.not_not, Bool.not_eq_true] at hn
    obtain ⟨s, hr, hf⟩ := lonely_reach hn.1 hn.2.1 (Classical.not_not.mp hn.2.2)
    obtain ⟨_, _, p, hs⟩ := Full.stuck hf
    simp only [Full, Bool.and_eq_true, beq_iff_eq, Bool.not_eq_true'] at hf
    obtain ⟨⟨⟨⟨⟨⟨⟨⟨⟨h1, h2⟩, h3⟩, h4⟩, h5⟩, h6⟩, h7⟩, h8⟩, h9⟩, h10⟩ := hf
    have hl := (List.getElem?_eq_some_iff.mp h7).1
    -- pollReplyLoop goes on until it waits
    generalize hme : pollReplyImage (announced P.config) = me
    have hx1 : s.exec P (.run 0 .next) = some (s.goto 0 (.prTop me)) := by
      rw [exec_run h1 h7]
      simp only [Sys.step, me_eq, hme]
    have hx2 : (s.goto 0 (.prTop me)).exec P (.run 0 .next) = some ((s.goto 0 (.prTop me)).goto 0 (.prWait 0 me)) := by
      rw [exec_run (s := s.goto 0 (.prTop me)) (t := .prTop me) h1 (by simp [Sys.goto, hl])]
      show Option.map _ s.cur = _
      rw [h6]
      rfl
    have hr' := (hr.step hx1 nofun).step hx2 nofun
    have hset : settles P [] ((s.goto 0 (.prTop me)).goto 0 (.prWait 0 me)) = true := by
      have hst : still ((s.goto 0 (.prTop me)).goto 0 (.prWait 0 me)) = true := by
        simp only [still, Sys.goto, List.set_set, List.all_eq_true] at h10 ⊢
        intro t ht
        obtain ⟨j, hj⟩ := List.getElem?_of_mem ht
        by_cases h0 : j = 0
        · subst h0
          rw [List.getElem?_set_self hl] at hj
          cases hj
          split at h9
          case h_2 => cases h9
          rename_i ch hc
          simp only [Bool.and_eq_true] at h9
          simp [hc, h9.1.2, h9.2]
        · rw [List.getElem?_set_ne (Ne.symm h0)] at hj
          exact h10 t (List.mem_of_getElem? (i := j) (by rw [List.getElem?_set_ne (Ne.symm h0)]; exact hj))
      simp only [settles, Bool.and_eq_true, beq_iff_eq, Bool.not_eq_true']
      exact ⟨⟨⟨⟨⟨h2, h3⟩, h1⟩, h4⟩, h5⟩, hst⟩
    obtain ⟨e, he, hst, _⟩ := fair_exists hr' hset
    have h14 : (((s.goto 0 (.prTop me)).goto 0 (.prWait 0 me)).threads)[14]? = some (.hReply 0 p) := by
      simp only [Sys.goto, List.set_set]
      rw [List.getElem?_set_ne (by decide)]
      exact hs.thr
    obtain ⟨m, _, hm⟩ := h e he 0 14 _ (by rw [hst]; exact h14) rfl
    exact hm (by rw [hst]; exact h14)
  · intro hP e hf n i t ht hw
    have hP' : P.controller = true ∨ P.config.type ≠ StyleCode.stController := by
      rcases hP with h | h | h
      · exact .inl h
      · exact .inr h
      · exact absurd (on_valid e.first.reach (e.session 0).1) h
    obtain ⟨m, hm, _, _, h⟩ := C88_partial hP' e hf ht hw
    exact ⟨m + 1, by omega, h⟩

end Verif.Props
