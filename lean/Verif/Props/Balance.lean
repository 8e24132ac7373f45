import Verif.Props.Fair
import Verif.Spec.Balance
/-
C126: nothing is lost between the stages.
-/
namespace Verif.Props
open Conc Packet Code Artnet Spec

theorem countP_total (f : Thread → Bool) (w : Thread → Nat) (h : ∀ t, w t = if f t then 1 else 0) (l : List Thread) :
    l.countP f = total w l := by
  induction l with
  | nil => rfl
  | cons t l ih =>
    rw [List.countP_cons, total_cons, ih, h t, Nat.add_comm]

/-- C126: the calls of the built-in call-back for ArtPoll and the ArtPoll packets that pollLoop makes are the replies
put into sendCh and what is between. -/
theorem C126_polls {P : Params} {s : Sys} (h : Reach P s) :
    s.calls.countP isPollCall + s.own = (enqueued s).countP isReply + s.unanswered := by
  rw [← poll_conservation h, Sys.unanswered,
    countP_total Thread.answering wPollT (by intro t; cases t <;> rfl) s.threads]
  have : total wPollC s.chans = (enqueued s).countP isReply + (s.chans.flatMap Chans.poll).length := by
    rw [enqueued]
    generalize s.chans = l
    induction l with
    | nil => rfl
    | cons c l ih =>
      simp only [List.flatMap_cons, List.countP_append, List.length_append, total_cons, wPollC, ih]
      omega
  omega

/-- C126: the calls of the built-in call-back for ArtPollReply are the announcements processed and those between. -/
theorem C126_announcements {P : Params} (hc : P.config.type = StyleCode.stController) {s : Sys} (h : Reach P s)
    (p : ArtPollReply) :
    s.calls.countP (isReplyCall p) = s.hist.countP (isReplyOp p) + s.unprocessed p := by
  rw [← reply_conservation hc h p, Sys.unprocessed,
    countP_total (Thread.relaying p) (wRepT p)
      (by intro t; cases t <;> simp [Thread.relaying, wRepT]) s.threads]
  have : total (wRepC p) s.chans = (s.chans.flatMap Chans.pollReply).count p := by
    generalize s.chans = l
    induction l with
    | nil => rfl
    | cons c l ih => simp only [List.flatMap_cons, List.count_append, total_cons, wRepC, ih]
  omega

/-- When nothing is between, every poll has been answered. -/
theorem C126_all_answered {P : Params} {s : Sys} (h : Reach P s) (hn : s.unanswered = 0) :
    (enqueued s).countP isReply = s.calls.countP isPollCall + s.own := by
  have := C126_polls h; omega

/-- A poll is answered and one is not; an announcement is processed and one is not. -/
example : after sampleNode (samplePollAnswered ++ sampleRead 3 ⟨[2, 0, 0, 2], 6454⟩ samplePoll ++ [.run 5 .next, .run 5 .next])
      (fun s => s.calls.countP isPollCall == 2 && s.unanswered == 1) = true ∧
    after sampleController (sampleDiscover ++
        sampleRead 5 ⟨ipA.val, 6454⟩ (pollReplyImage { replyOf ipA 1 with port := 6454 }) ++ [.run 7 .next, .run 7 .next])
      (fun s => s.calls.any fun c => match c.2 with
        | .pollReply p => s.calls.countP (isReplyCall p) == 2 && s.unprocessed p == 1
        | _ => false) = true := by
  constructor <;> decide +kernel

end Verif.Props
