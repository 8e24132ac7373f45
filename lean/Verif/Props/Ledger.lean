import Verif.Lemmas.Ledger
import Verif.Props.Say
import Verif.Props.Receive
/-
C157: the log as a ledger of the datagrams.
-/
namespace Verif.Props
open Spec Packet Code Artnet Conc

/-- How many entries of the log say that a datagram was written. -/
def sentEntries (l : List Line) : Nat := (l.filterMap Line.sent?).length

/-- C157 as stated: once all goroutines have ended, the log has an entry for every datagram that was put into sendCh, that it was
written or that writing it failed. -/
def C157_statement : Prop := ∀ (P : Params) (as : List Act) (s : Sys), (Sys.init P).execs P as = some s → s.crashed = none →
  (∀ t ∈ s.threads, t = .done) →
  (enqueued s).length = sentEntries ((Sys.init P).log P as) + ((Sys.init P).log P as).count .writeFailed

/-- Start, an ArtPoll is read and the reply to it is queued, sendLoop takes it; Stop, and all goroutines end. -/
def sampleGivenUp : List Act := samplePollAnswered.dropLast.dropLast ++
  [.stop, .stopStep, .stopStep, .run 2 .next, .run 0 .next, .run 0 .down, .run 1 .next, .run 1 .down,
    .run 3 .next, .run 3 .fail, .run 3 .next]

/-- Every goroutine has ended. -/
def ended (l : List Thread) : Bool := l.all fun t => match t with | .done => true | _ => false

/-- The reply that sendLoop had in its hand when the Node was stopped is neither written nor in the log. -/
theorem C157_false : ¬ C157_statement := by
  intro h
  have h1 : ((Sys.init sampleNode).execs sampleNode sampleGivenUp).any (fun s => s.crashed.isNone && ended s.threads &&
      (enqueued s).length == 1 && sentEntries ((Sys.init sampleNode).log sampleNode sampleGivenUp) == 0 &&
      ((Sys.init sampleNode).log sampleNode sampleGivenUp).count .writeFailed == 0) = true := by decide +kernel
  cases hs : (Sys.init sampleNode).execs sampleNode sampleGivenUp with
  | none => rw [hs] at h1; cases h1
  | some s =>
    rw [hs] at h1
    simp only [Option.any_some, Bool.and_eq_true, beq_iff_eq, Option.isNone_iff_eq_none] at h1
    obtain ⟨⟨⟨⟨h1, h2⟩, h3⟩, h4⟩, h5⟩ := h1
    have := h _ _ s hs h1 (by
      intro t ht
      have := List.all_eq_true.mp h2 t ht
      cases t <;> first | rfl | cases this)
    rw [h3, h4, h5] at this
    cases this

/-- C157: at every moment the datagrams that were put into sendCh are those that the log says were written, those that the log says
could not be written, the ones in the hand of a sendLoop, the ones that wait in sendCh, and the ones that a sendLoop gave up because
the Node was stopped. -/
theorem C157_partial {P : Params} {s : Sys} {as : List Act} (h : (Sys.init P).execs P as = some s) :
    (enqueued s).length = sentEntries ((Sys.init P).log P as) + ((Sys.init P).log P as).count .writeFailed +
      (s.threads.flatMap Thread.writing).length + (s.chans.flatMap Chans.send).length + (Sys.init P).givenUp P as := by
  have hm := (log_moves h).due
  have hl : ∀ {α β : Type} (f : α → List β) (l : List α), (l.flatMap f).length = total (fun a => (f a).length) l := by
    intro α β f l
    rw [List.length_flatMap]
    rfl
  have hw : sentEntries ((Sys.init P).log P as) = s.wire.length := by
    rw [sentEntries, (C146_traffic h).1, List.length_map]
  have hq : ∀ l : List Chans, (∀ c ∈ l, c.enq = c.taken ++ c.send) →
      (l.flatMap Chans.enq).length = total wTook l + (l.flatMap Chans.send).length := by
    intro l
    induction l with
    | nil => intro _; rfl
    | cons c l ih =>
      intro hc
      have h1 := ih fun c hc' => hc c (List.mem_cons_of_mem _ hc')
      have h2 := hc c (List.mem_cons_self ..)
      simp only [List.flatMap_cons, List.length_append, total_cons, h1, h2, wTook]
      omega
  have he := hq s.chans (C64_order ⟨as, h⟩)
  rw [enqueued, he, hw, hl Thread.writing]
  have hi : (Sys.init P).due = 0 := rfl
  rw [hi] at hm
  simp only [Sys.due] at hm
  have : total wHand s.threads = total (fun a => a.writing.length) s.threads := rfl
  omega

/-- C157: a Start is followed by at most one datagram given up. -/
theorem C157_once {P : Params} {s : Sys} {as : List Act} (h : (Sys.init P).execs P as = some s) :
    (Sys.init P).givenUp P as + s.threads.countP Thread.sends ≤ s.conns.length := by
  have hm := (log_moves h).spare
  have hi : (Sys.init P).spare = 0 := rfl
  rw [hi] at hm
  have : s.threads.countP Thread.sends = total wSender s.threads := by
    generalize s.threads = l
    induction l with
    | nil => rfl
    | cons t l ih =>
      rw [List.countP_cons, ih, total_cons, wSender]
      omega
  simp only [Sys.spare] at hm
  omega

/-- C157: before Stop is called, every datagram that was put into sendCh has its entry, is in the hand of a sendLoop or waits in
sendCh. -/
theorem C157_running {P : Params} {s : Sys} {as : List Act} (h : (Sys.init P).execs P as = some s) (hn : .stop ∉ as) :
    (enqueued s).length = sentEntries ((Sys.init P).log P as) + ((Sys.init P).log P as).count .writeFailed +
      (s.threads.flatMap Thread.writing).length + (s.chans.flatMap Chans.send).length := by
  have := C157_partial h
  rw [givenUp_zero h (fun _ => ⟨rfl, nofun⟩) (Int.le_refl 0) hn] at this
  exact this

/-- C157: the entries about datagrams that were read, from first to last: each is of one that did not decode, of one without
call-back, of one whose call-back was called, or of one on its way. -/
theorem C157_received {P : Params} {s : Sys} {as : List Act} (h : (Sys.init P).execs P as = some s) :
    (((Sys.init P).log P as).filterMap Line.received?).length =
      (((Sys.init P).log P as).filterMap Line.unparsed?).length + (((Sys.init P).log P as).filterMap Line.unhandled?).length +
      s.calls.length + s.queued.length + s.handling.length := by
  have hr : Reach P s := ⟨as, h⟩
  obtain ⟨-, h2, h3, h4⟩ := C146_traffic h
  rw [h2, h3, h4, List.length_map, List.length_map]
  have e1 := (C60_exactly_once hr).length_eq
  have e2 := (C60_undecodable hr).length_eq
  simp only [List.length_append, List.length_map] at e1 e2
  have e3 : ∀ l : List Payload, l.length = (l.filterMap decode).length + (l.filter fun p => (decode p).isNone).length := by
    intro l
    induction l with
    | nil => rfl
    | cons p l ih =>
      cases hd : decode p with
      | none => simp [hd, ih]; omega
      | some q => simp [hd, ih]; omega
  have e4 := e3 s.accepted
  have e5 := e3 s.queued
  omega

/-- C157: every datagram that was read and came from another host has an entry that it was received, is being looked at, or was read
while the Node was stopped. -/
theorem C157_arrived {P : Params} {s : Sys} {as : List Act} (h : (Sys.init P).execs P as = some s) :
    (s.arrived.filter (fromOther P)).length = (((Sys.init P).log P as).filterMap Line.received?).length +
      (s.checking.filter (fromOther P)).length + (s.lost.filter (fromOther P)).length := by
  have e := (C60_arrived ⟨as, h⟩).length_eq
  rw [(C146_traffic h).2.1, List.length_map]
  simpa only [List.length_append, List.length_map] using e

/-- One datagram given up, one written, one that could not be written, one in the hand, one that waits; one that was read and did not
decode, one with a call-back. -/
example : ((Sys.init sampleNode).givenUp sampleNode sampleGivenUp == 1 &&
    sentEntries ((Sys.init sampleNode).log sampleNode samplePollAnswered) == 1 &&
    ((Sys.init sampleNode).log sampleNode (samplePollAnswered.dropLast ++ [.run 2 .fail])).count .writeFailed == 1 &&
    after sampleNode samplePollAnswered.dropLast (fun s => (s.threads.flatMap Thread.writing).length == 1) &&
    after sampleNode samplePollAnswered.dropLast.dropLast.dropLast (fun s => (s.chans.flatMap Chans.send).length == 1) &&
    after sampleNode samplePollAnswered (fun s => s.calls.length == 1 && (s.arrived.filter (fromOther sampleNode)).length == 1)) =
      true ∧
    Act.stop ∉ samplePollAnswered := by
  refine ⟨by decide +kernel, ?_⟩
  intro h
  simp [samplePollAnswered, sampleStart, sampleRead] at h

end Verif.Props
