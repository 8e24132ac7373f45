import Verif.Props.Linear
import Verif.Props.Send
import Verif.Lemmas.ConcDrain
/-
Whether goroutines terminate and locks become free: C66, C67.
-/
namespace Verif.Props
open Spec Packet Code Artnet Conc

/-! ### C66 -/

/-- C66 as stated: from every state in which Stop has returned, the goroutines can be scheduled (possibly with
further calls from outside) so that all of them return. -/
def C66_statement : Prop := ∀ (P : Params) (s : Sys), Reach P s → s.phase = .stopped → s.crashed = none →
  ∃ as s', s.execs P as = some s' ∧ ∀ t ∈ s'.threads, t = .done

/-- recvCh is full and the reader waits to send one datagram more. Then Stop is called, and recvLoop takes the
case of the closed channel. -/
def sampleBlocked : List Act := sampleStart ++ sampleFill 10 ++
  [.run 3 .next, .run 3 (.read ⟨[2, 0, 0, 2], 6454⟩ []), .run 3 .next, .run 3 .next, .run 1 .next,
    .stop, .stopStep, .stopStep, .run 1 .down]

/-- The reader that waits at a full recvCh when recvLoop ends never returns, whatever happens afterwards: it
is in the same place after every continuation, with and without further Starts. -/
theorem C66_blocked : ∃ (s : Sys) (b : Bytes) (p : Payload), Reach sampleNode s ∧ s.phase = .stopped ∧
    s.crashed = none ∧ ∀ as s', s.execs sampleNode as = some s' → s'.threads[3]? = some (.rdPush 0 b p) := by
  have h : after sampleNode sampleBlocked (fun s : Sys => s.phase == .stopped && s.crashed == none &&
      (match s.threads[3]? with | some (Thread.rdPush 0 _ _) => true | _ => false) &&
      (match s.chans[0]? with | some ch => decide (capacity ≤ ch.recv.length) | _ => false) &&
      s.threads.all (fun t => t != .rlWait 0) && s.control != .listening &&
      s.threads.all (fun t => !isRl t)) = true := by decide +kernel
  obtain ⟨s, hr, hrun, hf⟩ := after_reach h
  clear hrun
  simp only [Bool.and_eq_true, beq_iff_eq, List.all_eq_true, bne_iff_ne, ne_eq, Bool.not_eq_true'] at hf
  obtain ⟨⟨⟨⟨⟨⟨h1, h2⟩, h3⟩, h4⟩, h5⟩, h6⟩, h7⟩ := hf
  split at h3
  · rename_i b p ht
    split at h4
    · rename_i ch hc
      have hs : RecvStuck 3 b p s := ⟨ht, ⟨ch, hc, by simpa using h4⟩, h5, fun _ => ⟨h6, h7⟩⟩
      refine ⟨s, b, p, hr, h1, h2, ?_⟩
      intro as
      clear h1 h2 ht h4 h5 h6 h7 hc hr h
      induction as generalizing s with
      | nil => intro s' he; cases he; exact hs.thr
      | cons a as ih =>
        intro s' he
        simp only [Sys.execs] at he
        cases hx : s.exec sampleNode a with
        | none => rw [hx] at he; cases he
        | some s1 =>
          rw [hx] at he
          exact ih s1 (recvStuck_step hs (exec_Step hx).2) s' he
    · cases h4
  · cases h3

theorem C66_false : ¬ C66_statement := by
  intro h
  obtain ⟨s, b, p, hr, h1, h2, h3⟩ := C66_blocked
  obtain ⟨as, s', he, hd⟩ := h _ s hr h1 h2
  have := hd _ (List.mem_of_getElem? (h3 as s' he))
  cases this

/-- The goroutine steps that are not ticks change neither the life cycle nor crash the process. -/
theorem quiet_steps {P : Params} (hfps : P.controller = true → 1 ≤ P.maxFPS ∧ P.maxFPS ≤ 1000000000)
    {as : List Act} {s s' : Sys} (hr : Reach P s) (hp : s.phase = .stopped) (hcr : s.crashed = none)
    (hlk : Thread.duLock ∉ s.threads) (hcb : s.callable) (hq : ∀ a ∈ as, a.quiet = true) (he : s.execs P as = some s') :
    s'.crashed = none ∧ s'.phase = .stopped ∧ Thread.duLock ∉ s'.threads ∧
    (∀ d, d ∈ s'.cdown ↔ d ∈ s.cdown) ∧ s'.chans.map Chans.down = s.chans.map Chans.down ∧
    s'.work + as.length ≤ s.work ∧ s'.inFlight ≤ s.inFlight := by
  induction as generalizing s with
  | nil => cases he; exact ⟨hcr, hp, hlk, fun _ => Iff.rfl, rfl, Nat.le_refl _, Nat.le_refl _⟩
  | cons a as ih =>
    simp only [Sys.execs] at he
    cases hx : s.exec P a with
    | none => rw [hx] at he; cases he
    | some s1 =>
      rw [hx] at he
      have hqa := hq a (List.mem_cons_self ..)
      match a, hqa with
      | .run i c, hqa =>
        have hc : c ≠ .tick := by rintro rfl; cases hqa
        have hc' : c ≠ .gcTick := by rintro rfl; cases hqa
        cases ht : s.threads[i]? with
        | none =>
          unfold Sys.exec at hx
          rw [hcr, if_neg (by simp)] at hx
          simp only [ht] at hx
          cases hx
        | some t =>
          rw [exec_run hcr ht] at hx
          have hm := List.mem_of_getElem? ht
          have htl : t ≠ .duLock := by rintro rfl; exact hlk hm
          have hsh : s.shutdown = true := (life hr).shut.mpr (by rw [hp]; nofun)
          have hn : s1.crashed = none := by
            cases hcx : s1.crashed with
            | none => rfl
            | some f =>
              rcases step_crash hcr hx hcx with ⟨_, h2⟩ | ⟨p, _, h2⟩ | ⟨_, _, _, h2, _⟩ | ⟨h1, _, h2⟩ |
                ⟨p, _, _, h2, _⟩
              · rw [me_eq] at h2; cases h2
              · obtain ⟨r, hr⟩ := unmarshal_total p.data
                rw [hr] at h2; cases h2
              · rw [hsh] at h2; cases h2
              · subst h1
                have hP : P.controller = true := refs hr _ hm
                rw [(C56_partial P.maxFPS).2 (hfps hP)] at h2
                cases h2
              · exact absurd h2 (hcb _)
          have hfr := step_frame hx
          have hw := step_work hsh ht htl hc hc' hx hn
          have hlk1 : Thread.duLock ∉ s1.threads := by
            have old : ∀ {i t'}, t' ≠ .duLock → Thread.duLock ∉ s.threads.set i t' := by
              intro i t' ht' hmem
              rcases List.mem_or_eq_of_mem_set hmem with hmem | hmem
              · exact hlk hmem
              · exact ht' hmem.symm
            have old1 : ∀ {i t' u}, t' ≠ .duLock → u ≠ .duLock → Thread.duLock ∉ s.threads.set i t' ++ [u] := by
              intro i t' u ht' hu hmem
              rcases List.mem_append.mp hmem with hmem | hmem
              · exact old ht' hmem
              · exact hu (List.mem_singleton.mp hmem).symm
            cases step_Run hx with
            | panic => exact hlk
            | move m hq => exact old (hq hc hc').2.2
            | pushSend k _ _ => refine old ?_; cases k <;> nofun
            | call _ hcl => refine old ?_; cases hcl <;> nofun
            | lock _ _ => exact absurd rfl htl
            | spawnReader => exact old1 nofun nofun
            | spawnHandler => exact old1 nofun nofun
            | _ => exact old nofun
          have hr1 : Reach P s1 := hr.exec (a := .run i c) (by rw [exec_run hcr ht]; exact hx)
          obtain ⟨h1, h2, h3, h4, h5, h6, h7⟩ := ih hr1 (hfr.phase.trans hp) hn hlk1 (fun o => by rw [hfr.callbacks]; exact hcb o)
            (fun a ha => hq a (List.mem_cons_of_mem _ ha)) he
          refine ⟨h1, h2, h3, fun d => by rw [h4 d, hfr.cdown], h5.trans hfr.down, ?_, ?_⟩
          · simp only [List.length_cons]; omega
          · omega

/-- C66 as far as it holds: Stop has returned, every channel made by Start has been closed, no tick is being
processed, no call-back is nil, and at most ten items are under way inside the node. Then every schedule without further ticks is
finite, with a bound known from the state, and it can be continued until all goroutines have returned. -/
theorem C66_partial {P : Params} {s : Sys} (h : Reach P s) (hp : s.phase = .stopped) (hcr : s.crashed = none)
    (hfps : P.controller = true → 1 ≤ P.maxFPS ∧ P.maxFPS ≤ 1000000000)
    (hdown : ∀ ch ∈ s.chans, ch.down = true) (hcdown : ∀ d ∈ s.cdown, d = true)
    (hlk : Thread.duLock ∉ s.threads) (hcb : s.callable) (hroom : s.inFlight ≤ 10) :
    ∃ n, ∀ as s', (∀ a ∈ as, a.quiet = true) → s.execs P as = some s' →
      as.length ≤ n ∧ s'.crashed = none ∧
      ((∀ t ∈ s'.threads, t = .done) ∨ ∃ a s'', a.quiet = true ∧ s'.exec P a = some s'') := by
  refine ⟨s.work, fun as s' hq he => ?_⟩
  obtain ⟨h1, h2, h3, h4, h5, h6, h7⟩ := quiet_steps hfps h hp hcr hlk hcb hq he
  refine ⟨by omega, h1, ?_⟩
  by_cases hall : ∀ t ∈ s'.threads, t = .done
  · exact .inl hall
  · refine .inr ?_
    have hn : ∃ t ∈ s'.threads, t ≠ .done := by
      refine Classical.byContradiction fun hx => hall fun t ht => ?_
      exact Classical.byContradiction fun hy => hx ⟨t, ht, hy⟩
    have hd : ∀ ch ∈ s'.chans, ch.down = true := by
      intro ch hc
      have : ch.down ∈ s'.chans.map Chans.down := List.mem_map_of_mem hc
      rw [h5] at this
      obtain ⟨c0, hc0, hx⟩ := List.mem_map.mp this
      rw [← hx]
      exact hdown c0 hc0
    obtain ⟨i, t, c, s'', ht, hc, hc', hst⟩ := some_go (h.execs he) h2
      (closedFor_all (h.execs he) hd (fun d hd => hcdown d ((h4 d).mp hd))) h3
      (fun i g t ch ht _ hg => room (show s'.inFlight ≤ 10 by omega) ht hg) hn
    refine ⟨.run i c, s'', ?_, by rw [exec_run h1 ht]; exact hst⟩
    cases c <;> first | rfl | exact absurd rfl hc | exact absurd rfl hc'

/-- Schedules that can be continued until all goroutines have returned, and not for ever. -/
theorem exhaust {P : Params} {s : Sys} {n : Nat} (hr : Reach P s)
    (hn : ∀ as s', (∀ a ∈ as, a.quiet = true) → s.execs P as = some s' → as.length ≤ n ∧ s'.crashed = none ∧
      ((∀ t ∈ s'.threads, t = .done) ∨ ∃ a s'', a.quiet = true ∧ s'.exec P a = some s'')) :
    ∃ as s', (∀ a ∈ as, a.quiet = true) ∧ s.execs P as = some s' ∧ (∀ t ∈ s'.threads, t = .done) ∧
      s'.lock = false := by
  -- extend schedules until the bound
  have key : ∀ m as s', (∀ a ∈ as, a.quiet = true) → s.execs P as = some s' → n + 1 ≤ as.length + m →
      ∃ as s', (∀ a ∈ as, a.quiet = true) ∧ s.execs P as = some s' ∧ (∀ t ∈ s'.threads, t = .done) := by
    intro m
    induction m with
    | zero =>
      intro as s' hq he hm
      have := (hn as s' hq he).1
      omega
    | succ m ih =>
      intro as s' hq he hm
      rcases (hn as s' hq he).2.2 with hx | ⟨a, s'', hqa, hst⟩
      · exact ⟨as, s', hq, he, hx⟩
      · have he2 : s.execs P (as ++ [a]) = some s'' := by
          rw [execs_append, he]; simp [Sys.execs, hst]
        refine ih (as ++ [a]) s'' ?_ he2 (by simp; omega)
        intro b hb
        rcases List.mem_append.mp hb with hb | hb
        · exact hq b hb
        · cases List.mem_singleton.mp hb; exact hqa
  obtain ⟨as, s', hq, he, hd⟩ := key (n + 1) [] s nofun rfl (by simp)
  refine ⟨as, s', hq, he, hd, ?_⟩
  cases hl : s'.lock with
  | false => rfl
  | true =>
    obtain ⟨i, t, ht, hh⟩ := holder_exists (hr.execs he) hl
    rw [hd t (List.mem_of_getElem? ht)] at hh
    cases hh

/-- So all goroutines can return, and then the lock is free. -/
theorem C66_terminates {P : Params} {s : Sys} (h : Reach P s) (hp : s.phase = .stopped) (hcr : s.crashed = none)
    (hfps : P.controller = true → 1 ≤ P.maxFPS ∧ P.maxFPS ≤ 1000000000)
    (hdown : ∀ ch ∈ s.chans, ch.down = true) (hcdown : ∀ d ∈ s.cdown, d = true)
    (hlk : Thread.duLock ∉ s.threads) (hcb : s.callable) (hroom : s.inFlight ≤ 10) :
    ∃ as s', s.execs P as = some s' ∧ (∀ t ∈ s'.threads, t = .done) ∧ s'.lock = false := by
  obtain ⟨n, hn⟩ := C66_partial h hp hcr hfps hdown hcdown hlk hcb hroom
  obtain ⟨as, s', _, h1, h2, h3⟩ := exhaust h hn
  exact ⟨as, s', h1, h2, h3⟩

/-- C66 as far as it holds when every Start waits for the goroutines of the session before: once Stop has
returned, no tick is being processed, no call-back is nil and at most ten items are under way, every schedule without further ticks
is finite and can be continued until all goroutines have returned; then the lock is free. Nothing is assumed
about channels being closed, or about what earlier sessions left in their queues. -/
theorem C66_orderly {P : Params} {s : Sys} (h : TidyReach P s) (hp : s.phase = .stopped) (hcr : s.crashed = none)
    (hfps : P.controller = true → 1 ≤ P.maxFPS ∧ P.maxFPS ≤ 1000000000)
    (hlk : Thread.duLock ∉ s.threads) (hcb : s.callable) (hroom : s.underWay ≤ 10) :
    (∃ n, ∀ as s', (∀ a ∈ as, a.quiet = true) → s.execs P as = some s' →
      as.length ≤ n ∧ s'.crashed = none ∧
      ((∀ t ∈ s'.threads, t = .done) ∨ ∃ a s'', a.quiet = true ∧ s'.exec P a = some s'')) ∧
    ∃ as s', (∀ a ∈ as, a.quiet = true) ∧ s.execs P as = some s' ∧ (∀ t ∈ s'.threads, t = .done) ∧
      s'.lock = false := by
  have hn : ∀ as s', (∀ a ∈ as, a.quiet = true) → s.execs P as = some s' →
      as.length ≤ s.work ∧ s'.crashed = none ∧
      ((∀ t ∈ s'.threads, t = .done) ∨ ∃ a s'', a.quiet = true ∧ s'.exec P a = some s'') := by
    intro as s' hq he
    obtain ⟨h1, h2, h3, h4, h5, h6, h7⟩ := quiet_steps hfps h.reach hp hcr hlk hcb hq he
    refine ⟨by omega, h1, ?_⟩
    by_cases hall : ∀ t ∈ s'.threads, t = .done
    · exact .inl hall
    · refine .inr ?_
      have hx : ∃ t ∈ s'.threads, t ≠ .done := by
        refine Classical.byContradiction fun hx => hall fun t ht => ?_
        exact Classical.byContradiction fun hy => hx ⟨t, ht, hy⟩
      have h' := h.quiet hq he
      have hw : s'.underWay ≤ 10 := by
        rw [inFlight_eq, inFlight_eq, quiet_old h hq he] at h7
        omega
      obtain ⟨i, t, c, s'', ht, hc, hc', hst⟩ := some_go h'.reach h2 (closedFor_tidy h' h2) h3
        (fun i g t ch ht hs hg => room_tidy h' hw ht hs hg) hx
      refine ⟨.run i c, s'', ?_, by rw [exec_run h1 ht]; exact hst⟩
      cases c <;> first | rfl | exact absurd rfl hc | exact absurd rfl hc'
  exact ⟨⟨_, hn⟩, exhaust h.reach hn⟩

/-- The hypotheses hold after a session of a controller in which a node was discovered and data was sent; five
goroutines and the reader are still there. -/
example : after sampleController (sampleDiscover ++ [.call fullOn ⟨0, 1⟩, .run 7 .next] ++ sampleTick [⟨0, 1⟩] ++
    [.stop, .stopStep, .stopStep, .stopStep]) (fun s => s.phase == .stopped && s.crashed == none &&
      s.chans.all (·.down) && s.cdown.all (· == true) && s.threads.all (· != .duLock) && s.callbacks.all (·.2 != .nil) &&
      s.inFlight == 3 && (s.threads.filter (· != .done)).length == 6) = true := by decide +kernel

/-- Those of C66_orderly hold after two sessions of a controller, of which the first left an item in sendCh and
one in pollCh. -/
example : afterTidy sampleController (sampleStart ++ sampleStopC ++ [.start, .listen true, .run 8 .next, .run 10 .next,
    .stop, .stopStep, .stopStep, .stopStep]) (fun s => s.phase == .stopped && s.crashed == none &&
      s.threads.all (· != .duLock) && s.callbacks.all (·.2 != .nil) && s.underWay == 2 && s.inFlight == 4 && s.chans.length == 2 &&
      (s.threads.filter (· != .done)).length == 5) = true := by decide +kernel

/-! ### C67 -/

/-- C67 as stated: from every reachable state of a process that has not panicked, a state with the lock free
can be reached. -/
def C67_statement : Prop := ∀ (P : Params) (s : Sys), Reach P s → s.crashed = none →
  ∃ as s', s.execs P as = some s' ∧ s'.lock = false

/-- pollLoop sends nine times more, so that sendCh is full. -/
def samplePolls : List Act := (List.replicate 9
  [.run 3 .next, .run 3 .tick, .run 3 .next, .run 3 .next, .run 3 .next, .run 3 .next]).flatten

/-- The update loop waits to send a datagram, Stop is called, and sendLoop takes the case of the closed
channel. -/
def sampleDeadlock : List Act := sampleDiscover ++ [.call fullOn ⟨0, 1⟩, .run 7 .next] ++ samplePolls ++
  (sampleTick [⟨0, 1⟩]).take 6 ++ [.call fullOn ⟨0, 1⟩, .stop, .stopStep, .stopStep, .stopStep, .run 2 .down]

/-- The lock stays locked and the caller (goroutine 8) never returns, whatever happens afterwards. -/
theorem C67_deadlock : ∃ s : Sys, Reach sampleController s ∧ s.crashed = none ∧
    s.threads[8]? = some (.caller fullOn ⟨0, 1⟩) ∧
    ∀ as s', s.execs sampleController as = some s' →
      s'.lock = true ∧ s'.threads[8]? = some (.caller fullOn ⟨0, 1⟩) := by
  have h : after sampleController sampleDeadlock (fun s => s.crashed == none &&
      (s.threads[8]? == some (.caller fullOn ⟨0, 1⟩)) &&
      (match s.threads[4]? with | some (Thread.duSend 0 _ _ _ _) => true | _ => false) &&
      (match s.chans[0]? with | some ch => decide (capacity ≤ ch.send.length) | _ => false) &&
      s.threads.all (fun t => t != .slWait 0) && s.control != .listening &&
      s.threads.all (fun t => !isSl t)) = true := by decide +kernel
  obtain ⟨s, hr, hrun, hf⟩ := after_reach h
  clear hrun
  simp only [Bool.and_eq_true, beq_iff_eq, List.all_eq_true, bne_iff_ne, ne_eq, Bool.not_eq_true'] at hf
  obtain ⟨⟨⟨⟨⟨⟨h2, hcall⟩, h3⟩, h4⟩, h5⟩, h6⟩, h7⟩ := hf
  split at h3
  · rename_i e pend rest now ht
    split at h4
    · rename_i ch hc
      have hs : SendStuck 4 e pend rest now s := ⟨ht, ⟨ch, hc, by simpa using h4⟩, h5, fun _ => ⟨h6, h7⟩⟩
      refine ⟨s, hr, h2, hcall, ?_⟩
      intro as
      clear h2 ht h4 h5 h6 h7 hc h
      have locked : ∀ {s : Sys}, Reach sampleController s → SendStuck 4 e pend rest now s → s.lock = true := by
        intro s hr hs
        cases hl : s.lock with
        | true => rfl
        | false => have := (lin_inv hr).nobody hl hs.thr; cases this
      induction as generalizing s with
      | nil => intro s' he; cases he; exact ⟨locked hr hs, hcall⟩
      | cons a as ih =>
        intro s' he
        simp only [Sys.execs] at he
        cases hx : s.exec sampleController a with
        | none => rw [hx] at he; cases he
        | some s1 =>
          rw [hx] at he
          refine ih s1 (hr.exec hx) ?_ (sendStuck_step hs (exec_Step hx).2) s' he
          exact caller_stays hx hcall (locked hr hs)
    · cases h4
  · cases h3

theorem C67_false : ¬ C67_statement := by
  intro h
  obtain ⟨s, hr, h1, _, h3⟩ := C67_deadlock
  obtain ⟨as, s', he, hl⟩ := h _ s hr h1
  rw [(h3 as s' he).1] at hl
  cases hl

/-- C67 as far as it holds: when every Start waits for the goroutines of the session before, then in every
session, from the return of Start to the call of Stop, the lock can become free by steps of the goroutines of the
node, and then every caller of SendDMXToAddress that was waiting can do its work and return. -/
theorem C67_partial {P : Params} {s : Sys} (h : TidyReach P s) (hcr : s.crashed = none) (hon : s.on) :
    ∃ as s', (∀ a ∈ as, a.quiet = true) ∧ s.execs P as = some s' ∧ s'.lock = false ∧
      ∀ (k : Nat) d a, s.threads[k]? = some (.caller d a) →
        ∃ s'', s'.exec P (.run k .next) = some s'' ∧ s''.threads[k]? = some .done ∧
          s''.ctrl = s'.ctrl.sendDMX d a := by
  obtain ⟨g, hR⟩ := on_running h hon
  have key : ∃ s', Leads P s s' ∧ s'.crashed = none ∧ s'.lock = false ∧
      ∀ (k : Nat) d a, s.threads[k]? = some (.caller d a) → s'.threads[k]? = some (.caller d a) := by
    cases hl : s.lock with
    | false => exact ⟨s, .refl P s, hcr, hl, fun _ _ _ h => h⟩
    | true =>
      obtain ⟨i, t, ht, hh⟩ := holder_exists h.reach hl
      obtain ⟨s', a1, a2, _, a4, a5⟩ := unlock_possible _ (Nat.le_refl _) h hR hcr ht hh
      exact ⟨s', a1, a2, a4, fun k d a hk => a5 k _ hk rfl rfl⟩
  obtain ⟨s', ⟨as, hq, he⟩, hcr', hl, hk⟩ := key
  refine ⟨as, s', hq, he, hl, fun k d a hx => ?_⟩
  have hk := hk k d a hx
  refine ⟨_, (exec_run hcr' hk .next).trans (by simp only [Sys.step, hl]; rfl), ?_, rfl⟩
  exact List.getElem?_set_self (List.getElem?_eq_some_iff.mp hk).1

/-- The hypotheses hold with sendCh full, the lock held and a caller waiting. -/
example : afterTidy sampleController (sampleDiscover ++ [.call fullOn ⟨0, 1⟩, .run 7 .next] ++ samplePolls ++
    (sampleTick [⟨0, 1⟩]).take 6 ++ [.call fullOn ⟨0, 1⟩]) (fun s => s.crashed == none && s.phase == .started &&
      s.conns.getLast? == some true && s.lock && s.threads[8]? == some (.caller fullOn ⟨0, 1⟩) &&
      s.chans.all fun c => c.send.length == 10) = true := by decide +kernel

/-- They hold in a second session, with the lock held and a caller waiting. -/
example : afterTidy sampleController (sampleStart ++ sampleStopC ++ [.start, .listen true, .run 10 .next, .run 10 .next,
    .run 10 .tick, .run 10 (.order [] 0), .call fullOn ⟨0, 1⟩]) (fun s => s.crashed == none && s.phase == .started &&
      s.conns.getLast? == some true && s.chans.length == 2 && s.lock &&
      s.threads[11]? == some (.caller fullOn ⟨0, 1⟩)) = true := by decide +kernel

end Verif.Props
