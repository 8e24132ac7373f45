import Verif.Props.Progress
import Verif.Lemmas.ConcLive
/-
Freedom from deadlock while running: C77.
-/
namespace Verif.Props
open Spec Packet Code Artnet Conc

/-! ### C77 -/

/-- C77 as stated: between the return of Start and the call of Stop, if every Start waits for the goroutines of
the session before, a goroutine that does not rest (in a select, in a read, or because it has returned) can go on,
now or after others have done some steps. -/
def C77_statement : Prop := ∀ (P : Params) (s : Sys), TidyReach P s → s.crashed = none → s.on →
  ∀ (i : Nat) (t : Thread), s.threads[i]? = some t → t.resting = false →
    ∃ as s' c s'', s.execs P as = some s' ∧ s'.threads[i]? = some t ∧ s'.exec P (.run i c) = some s''

/-- A Node with style StController that does not belong to a Controller. -/
def sampleLonely : Params := Params.ofNode (newNode [0x6e] StyleCode.stController [2, 0, 0, 1] [])

/-- Eleven ArtPollReply packets arrive and are handled by the goroutines 4 to 14. -/
def sampleReplies : List Act := sampleStart ++ (List.range 11).flatMap fun k =>
  sampleRead 3 ⟨ipA.val, 6454⟩ (pollReplyImage { replyOf ipA 1 with port := 6454 }) ++
    [.run (4 + k) .next, .run (4 + k) .next] ++ (if k < 10 then [.run (4 + k) .next] else [])

/-- Nobody receives from the pollReplyCh of such a Node: the eleventh handler never returns, whatever
happens afterwards. -/
theorem C77_leak : ∃ (s : Sys) (p : ArtPollReply), TidyReach sampleLonely s ∧ s.crashed = none ∧ s.on ∧
    s.threads[14]? = some (.hReply 0 p) ∧
    ∀ as s' c, s.execs sampleLonely as = some s' →
      s'.threads[14]? = some (.hReply 0 p) ∧ s'.exec sampleLonely (.run 14 c) = none := by
  have h : afterTidy sampleLonely sampleReplies (fun s : Sys => s.crashed == none && s.phase == .started &&
      s.conns.getLast? == some true &&
      (match s.threads[14]? with | some (Thread.hReply 0 _) => true | _ => false) &&
      (match s.chans[0]? with | some ch => decide (capacity ≤ ch.pollReply.length) | _ => false)) = true := by
    decide +kernel
  obtain ⟨s, hr, hf⟩ := afterTidy_reach h
  clear h
  simp only [Bool.and_eq_true, beq_iff_eq] at hf
  obtain ⟨⟨⟨⟨h1, h2⟩, h3⟩, h5⟩, h6⟩ := hf
  split at h5
  · rename_i p ht
    split at h6
    · rename_i ch hc
      have hs : ReplyStuck 14 p s := ⟨ht, ch, hc, by simpa using h6⟩
      refine ⟨s, p, hr, h1, ⟨h2, h3⟩, ht, ?_⟩
      intro as
      replace hr := hr.reach
      clear h1 h2 h3 ht h6 hc
      induction as generalizing s with
      | nil =>
        intro s' c he
        cases he
        refine ⟨hs.thr, ?_⟩
        cases hx : s.exec sampleLonely (.run 14 c) with
        | none => rfl
        | some s2 =>
          have hcr := (exec_Step hx).1
          rw [exec_run hcr hs.thr] at hx
          obtain ⟨c0, h0, hfull⟩ := hs.full
          cases step_Run hx with
          | move m _ => cases m
          | pushSend k _ _ => cases k
          | pushReply hg hl =>
            rw [h0] at hg
            cases hg
            omega
          | panic =>
            cases c <;> simp only [Sys.step, Sys.comm, h0, Chans.pushReply] at hx <;> try cases hx
            rw [if_neg (by omega)] at hx
            cases hx
      | cons a as ih =>
        intro s' c he
        simp only [Sys.execs] at he
        cases hx : s.exec sampleLonely a with
        | none => rw [hx] at he; cases he
        | some s1 =>
          rw [hx] at he
          exact ih s1 (replyStuck_step hr rfl hs (exec_Step hx).2) (hr.exec hx) s' c he
    · cases h6
  · cases h5

theorem C77_false : ¬ C77_statement := by
  intro h
  obtain ⟨s, p, hr, h1, h2, h5, h6⟩ := C77_leak
  obtain ⟨as, s', c, s'', he, _, hx⟩ := h _ s hr h1 h2 14 _ h5 rfl
  rw [(h6 as s' c he).2] at hx
  cases hx

/-- C77 as far as it holds: for every Controller, and for every Node whose style is not StController. Steps of
goroutines without a tick are enough. -/
theorem C77_partial {P : Params} {s : Sys} (h : TidyReach P s) (hcr : s.crashed = none) (hon : s.on)
    (hP : P.controller = true ∨ P.config.type ≠ StyleCode.stController)
    {i : Nat} {t : Thread} (ht : s.threads[i]? = some t) (hw : t.resting = false) :
    ∃ as s' c s'', (∀ a ∈ as, a.quiet = true) ∧ s.execs P as = some s' ∧ s'.threads[i]? = some t ∧
      (Act.run i c).quiet = true ∧ s'.exec P (.run i c) = some s'' := by
  obtain ⟨g, hR⟩ := on_running h hon
  obtain ⟨s', c, s'', ⟨as, hq, he⟩, hcr', ht', hqc, hst⟩ := live h hR hcr hP ht hw
  exact ⟨as, s', c, s'', hq, he, ht', hqc, by rw [exec_run hcr' ht']; exact hst⟩

/-- In particular in the first session. -/
theorem C77_first {P : Params} {s : Sys} (h : Reach P s) (hcr : s.crashed = none) (hp : s.phase = .started)
    (h1 : s.chans.length = 1) (h2 : s.conns = [true])
    (hP : P.controller = true ∨ P.config.type ≠ StyleCode.stController)
    {i : Nat} {t : Thread} (ht : s.threads[i]? = some t) (hw : t.resting = false) :
    ∃ as s' c s'', (∀ a ∈ as, a.quiet = true) ∧ s.execs P as = some s' ∧ s'.threads[i]? = some t ∧
      (Act.run i c).quiet = true ∧ s'.exec P (.run i c) = some s'' :=
  C77_partial (first_tidy h (Nat.le_of_eq h1)) hcr ⟨hp, by rw [h2]; rfl⟩ hP ht hw

/-- The hypotheses hold with the update loop at a full sendCh, the lock held and a caller waiting. -/
example : afterTidy sampleController (sampleDiscover ++ [.call fullOn ⟨0, 1⟩, .run 7 .next] ++ samplePolls ++
    (sampleTick [⟨0, 1⟩]).take 6 ++ [.call fullOn ⟨0, 1⟩]) (fun s => s.crashed == none && s.phase == .started &&
      s.conns == [true] && s.threads[8]? == some (.caller fullOn ⟨0, 1⟩) &&
      !(Thread.caller fullOn ⟨0, 1⟩).resting &&
      (match s.threads[4]? with | some (Thread.duSend 0 _ _ _ _) => true | _ => false)) = true := by decide +kernel

/-- They hold in a second session. -/
example : afterTidy sampleController (sampleStart ++ sampleStopC ++ [.start, .listen true, .run 10 .next, .run 10 .next,
    .run 10 .tick, .run 10 (.order [] 0), .call fullOn ⟨0, 1⟩]) (fun s => s.crashed == none && s.phase == .started &&
      s.conns.getLast? == some true && s.chans.length == 2 && s.lock &&
      s.threads[11]? == some (.caller fullOn ⟨0, 1⟩)) = true := by decide +kernel

/-- The two kinds of systems that the constructors make, apart from the one above. -/
example : sampleController.controller = true ∧ sampleNode.config.type ≠ StyleCode.stController := by decide

end Verif.Props
