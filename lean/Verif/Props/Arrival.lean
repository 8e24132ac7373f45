import Verif.Props.Linear
import Verif.Lemmas.Arrival
/-
C124, C125: the order in which packets reach the call-backs and announcements the controller.
-/
namespace Verif.Props
open Conc Packet Code Artnet Spec

/-- C124 as stated: the call-backs are called in the order in which the datagrams were received. -/
def C124_statement : Prop := ∀ (P : Params) (s : Sys), TidyReach P s →
  (s.calls.map (·.2)).Sublist (s.accepted.filterMap decode)

/-- Another ArtPoll datagram. -/
def samplePoll2 : Bytes := magic ++ [0x00, 0x20, 0, 14, 2, 0]

/-- Two ArtPoll datagrams are received. The goroutine that was started for the second (5) is faster than the
one for the first (4). -/
def sampleOvertake : List Act := sampleStart ++ sampleRead 3 ⟨[2, 0, 0, 2], 6454⟩ samplePoll ++
  sampleRead 3 ⟨[2, 0, 0, 2], 6454⟩ samplePoll2 ++ [.run 5 .next, .run 4 .next]

theorem C124_false : ¬ C124_statement := by
  intro h
  have hw : after sampleNode sampleOvertake (fun s => s.chans.length == 1 &&
      !((s.calls.map (·.2)).isSublist (s.accepted.filterMap decode))) = true := by decide +kernel
  obtain ⟨s, hr, _, hf⟩ := after_reach hw
  rw [Bool.and_eq_true, beq_iff_eq] at hf
  rw [List.isSublist_iff_sublist.mpr (h _ s (first_tidy hr (by omega)))] at hf
  cases hf.2

/-- C124 as far as it holds: when every handlePacket has looked for its call-back before recvLoop starts the
next one, the calls and then what is still on its way are in the order of arrival. -/
theorem C124_partial {P : Params} {s : Sys} (h : OneByOne P s) :
    (s.calls.map (·.2) ++ s.handling ++ s.line.filterMap decode).Sublist (s.accepted.filterMap decode) := by
  rw [List.append_assoc]; exact calls_order h

/-- The goroutines handlePacket are started in the order of arrival, and what has not got that far is in this
order as well. -/
theorem C124_started {P : Params} {s : Sys} (h : TidyReach P s) :
    (s.handling ++ s.line.filterMap decode).Sublist (s.accepted.filterMap decode) := toCome_order h

/-- Nothing of the session is missing in `line`: together with what earlier sessions left in their queues it
holds the payloads between reader and parser. -/
theorem C124_line (s : Sys) :
    s.queued.Perm (s.line ++ s.chans.dropLast.flatMap Chans.recv) := by
  have hc : (s.threads.flatMap Thread.carried).Perm
      (s.threads.flatMap Thread.parsing ++ s.threads.flatMap Thread.bringing) := by
    generalize s.threads = l
    induction l with
    | nil => exact .refl _
    | cons t l ih =>
      simp only [List.flatMap_cons]
      have ht : t.carried = t.parsing ++ t.bringing := by cases t <;> rfl
      rw [ht]
      refine (ih.append_left _).trans ?_
      simp only [List.append_assoc]
      refine List.Perm.append_left _ ?_
      rw [← List.append_assoc, ← List.append_assoc]
      exact List.perm_append_comm.append_right _
  have hn : s.chans.flatMap Chans.recv = s.chans.dropLast.flatMap Chans.recv ++ s.newest Chans.recv := by
    simp only [Sys.newest]
    cases hl : s.chans.getLast? with
    | none => rw [List.getLast?_eq_none_iff] at hl; rw [hl]; rfl
    | some ch =>
      obtain ⟨l, hl⟩ := List.getLast?_eq_some_iff.mp hl
      rw [hl, List.dropLast_concat, List.flatMap_append]
      simp
  rw [Sys.queued, Sys.line, hn]
  refine (hc.append_right _).trans ?_
  simp only [List.append_assoc]
  refine List.Perm.append_left _ ?_
  rw [← List.append_assoc]
  refine List.perm_append_comm.trans (List.Perm.append_left _ ?_)
  exact .refl _

/-- The state after actions that keep the conditions of `OneByOne`. -/
def serially (P : Params) (s : Sys) : List Act → Option Sys
  | [] => some s
  | a :: as =>
    match s.exec P a with
    | none => none
    | some s1 => if inTime s a && decide (s1.handling.length ≤ 1) then serially P s1 as else none

theorem serially_reach {P : Params} {as : List Act} {s s' : Sys} (hr : OneByOne P s) (h : serially P s as = some s') :
    OneByOne P s' := by
  induction as generalizing s with
  | nil => cases h; exact hr
  | cons a as ih =>
    simp only [serially] at h
    cases hx : s.exec P a with
    | none => rw [hx] at h; cases h
    | some s1 =>
      rw [hx] at h
      simp only [Bool.and_eq_true, decide_eq_true_eq] at h
      by_cases hok : inTime s a = true ∧ s1.handling.length ≤ 1
      · rw [if_pos hok] at h
        refine ih (hr.step hx ?_ hok.2) h
        rintro rfl
        exact List.all_eq_true.mp hok.1
      · rw [if_neg hok] at h; cases h

/-- The two datagrams one by one: two calls. A third one is at the reader, a fourth one is being parsed: the order is
that of arrival. -/
def sampleInTurn : List Act := sampleStart ++ sampleRead 3 ⟨[2, 0, 0, 2], 6454⟩ samplePoll ++ [.run 4 .next] ++
  sampleRead 3 ⟨[2, 0, 0, 2], 6454⟩ samplePoll2 ++ [.run 5 .next] ++
  (sampleRead 3 ⟨[2, 0, 0, 2], 6454⟩ samplePoll).take 7 ++ (sampleRead 3 ⟨[2, 0, 0, 2], 6454⟩ samplePoll2).take 4

example : ∃ s, OneByOne sampleNode s ∧ s.calls.length = 2 ∧ s.line.map Payload.data = [samplePoll, samplePoll2] ∧
    (s.accepted.map Payload.data) = [samplePoll, samplePoll2, samplePoll, samplePoll2] := by
  have hw : ((serially sampleNode (Sys.init sampleNode) sampleInTurn).any fun s => s.calls.length == 2 &&
      s.line.map Payload.data == [samplePoll, samplePoll2] &&
      s.accepted.map Payload.data == [samplePoll, samplePoll2, samplePoll, samplePoll2]) = true := by decide +kernel
  rw [Option.any_eq_true] at hw
  obtain ⟨s, hs, hf⟩ := hw
  simp only [Bool.and_eq_true, beq_iff_eq] at hf
  exact ⟨s, serially_reach .init hs, hf.1.1, hf.1.2, hf.2⟩

/-- Two goroutines handlePacket wait, in order. -/
example : ∃ s, TidyReach sampleNode s ∧ s.handling.length = 2 := by
  have hw : after sampleNode (sampleOvertake.take 21) (fun s => s.chans.length == 1 && s.handling.length == 2) = true := by
    decide +kernel
  obtain ⟨s, hr, _, hf⟩ := after_reach hw
  rw [Bool.and_eq_true, beq_iff_eq, beq_iff_eq] at hf
  exact ⟨s, first_tidy hr (by omega), hf.2⟩

/-! ### C125 -/

/-- C125 as stated: a controller processes the announcements in the order in which they were received. -/
def C125_statement : Prop := ∀ (P : Params) (s : Sys), TidyReach P s →
  (s.hist.filterMap Op.announced).Sublist (s.accepted.filterMap announcement)

/-- The datagram with which the node at 10.0.0.1 announces the output universe `u`. -/
def sampleNews (u : UInt8) : Bytes := pollReplyImage { replyOf ipA u with port := 6454 }

/-- The node announces universe 1 and then universe 2. The goroutine for the second announcement (7) is faster. -/
def sampleStale : List Act := sampleStart ++ sampleRead 5 ⟨ipA.val, 6454⟩ (sampleNews 1) ++
  sampleRead 5 ⟨ipA.val, 6454⟩ (sampleNews 2) ++
  [.run 7 .next, .run 7 .next, .run 7 .next, .run 6 .next, .run 6 .next, .run 6 .next,
    .run 3 .next, .run 3 .next, .run 3 .next, .run 3 .next, .run 3 .next, .run 3 .next, .run 3 (.at 0),
    .run 3 .next, .run 3 .next, .run 3 (.at 0)]

/-- In the end the controller sends to universe 1, although the announcement that arrived last is for universe 2
and no announcement is under way any more. -/
theorem C125_stale : after sampleController sampleStale (fun s => s.chans.length == 1 &&
    s.accepted.map Payload.data == [sampleNews 1, sampleNews 2] &&
    s.news.length == 0 && (s.ctrl.output.keys == [⟨0, 1⟩]) &&
    !((s.hist.filterMap Op.announced).isSublist (s.accepted.filterMap announcement))) = true := by decide +kernel

theorem C125_false : ¬ C125_statement := by
  intro h
  obtain ⟨s, hr, _, hf⟩ := after_reach C125_stale
  simp only [Bool.and_eq_true, beq_iff_eq] at hf
  have := hf.2
  rw [List.isSublist_iff_sublist.mpr (h _ s (first_tidy hr (by omega)))] at this
  cases this

/-- C125 as far as it holds: when every handlePacket of an announcement has put it into pollReplyCh before recvLoop
starts the next one, what has been processed and then what is still on its way is in the order of arrival. -/
theorem C125_partial {P : Params} {s : Sys} (h : InTurn P s) :
    (s.hist.filterMap Op.announced ++ s.news).Sublist (s.accepted.filterMap announcement) := told_order h

/-- The state after actions that keep the conditions of `InTurn`. -/
def inTurn (P : Params) (s : Sys) : List Act → Option Sys
  | [] => some s
  | a :: as =>
    match s.exec P a with
    | none => none
    | some s1 =>
      if inTime s a && decide ((s1.threads.flatMap Thread.announcing).length ≤ 1) then inTurn P s1 as else none

theorem inTurn_reach {P : Params} {as : List Act} {s s' : Sys} (hr : InTurn P s) (h : inTurn P s as = some s') :
    InTurn P s' := by
  induction as generalizing s with
  | nil => cases h; exact hr
  | cons a as ih =>
    simp only [inTurn] at h
    cases hx : s.exec P a with
    | none => rw [hx] at h; cases h
    | some s1 =>
      rw [hx] at h
      simp only [Bool.and_eq_true, decide_eq_true_eq] at h
      by_cases hok : inTime s a = true ∧ (s1.threads.flatMap Thread.announcing).length ≤ 1
      · rw [if_pos hok] at h
        refine ih (hr.step hx ?_ hok.2) h
        rintro rfl
        exact List.all_eq_true.mp hok.1
      · rw [if_neg hok] at h; cases h

/-- The two announcements one by one: the first is processed, the second is in pollReplyCh, and then processed. -/
def sampleNewsInTurn : List Act := sampleDiscover ++ sampleRead 5 ⟨ipA.val, 6454⟩ (sampleNews 2) ++
  [.run 7 .next, .run 7 .next, .run 7 .next]

example : ∃ s, InTurn sampleController s ∧ (s.hist.filterMap Op.announced).length = 1 ∧ s.news.length = 1 := by
  have hw : ((inTurn sampleController (Sys.init sampleController) sampleNewsInTurn).any fun s =>
      (s.hist.filterMap Op.announced).length == 1 && s.news.length == 1) = true := by decide +kernel
  rw [Option.any_eq_true] at hw
  obtain ⟨s, hs, hf⟩ := hw
  simp only [Bool.and_eq_true, beq_iff_eq] at hf
  exact ⟨s, inTurn_reach .init hs, hf.1, hf.2⟩

example : ∃ s, InTurn sampleController s ∧ (s.hist.filterMap Op.announced).length = 2 ∧
    s.ctrl.output.keys = [⟨0, 2⟩] := by
  have hw : ((inTurn sampleController (Sys.init sampleController) (sampleNewsInTurn ++
      [.run 3 .next, .run 3 .next, .run 3 (.at 0)])).any fun s =>
      (s.hist.filterMap Op.announced).length == 2 && s.ctrl.output.keys == [⟨0, 2⟩]) = true := by decide +kernel
  rw [Option.any_eq_true] at hw
  obtain ⟨s, hs, hf⟩ := hw
  simp only [Bool.and_eq_true, beq_iff_eq] at hf
  exact ⟨s, inTurn_reach .init hs, hf.1, hf.2⟩

end Verif.Props
