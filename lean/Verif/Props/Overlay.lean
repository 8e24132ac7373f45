import Verif.Lemmas.Overlay
import Verif.Props.Example
/-
What example/poll prints and when it panics, for every interleaving (C96, C97).
-/
namespace Verif.Props
open Artnet Packet Code Spec Example

/-- C96: whatever arrives and however the goroutines are interleaved, example/poll panics exactly when one of its parses
finds a packet of another kind. What a parse finds is the buffer as the datagrams read so far, from whatever host, have
left it when written one over the other, cut to the length of the datagram that was handed over for it. -/
theorem C96_exact (as : List ExAct) (s : ExPoll) (h : ExPoll.init.steps as = some s) :
    s.main = .panicked ↔ ∃ d ∈ views [] (foreign as) as, OtherPacket d := by
  have hk := (known_of_steps h).saw
  unfold Saw at hk
  split at hk <;> rename_i hm
  · exact ⟨fun hp => (by rw [hm] at hp; cases hp), fun ⟨d, hd, ho⟩ => absurd ho (hk.2.2 d hd)⟩
  · exact ⟨fun hp => (by rw [hm] at hp; cases hp), fun ⟨d, hd, ho⟩ => absurd ho (hk.2.2 d hd)⟩
  · obtain ⟨_, _, _, _, _, _, hn⟩ := hk
    exact ⟨fun hp => (by rw [hm] at hp; cases hp), fun ⟨d, hd, ho⟩ => absurd ho (hn d hd)⟩
  · obtain ⟨_, pre, d, hv, _, _, ho⟩ := hk
    exact ⟨fun _ => ⟨d, by rw [hv]; simp, ho⟩, fun _ => hm⟩

/-- C97: what example/poll has printed are exactly the announcements that its parses found, in order; there is one parse
for each datagram of another host, in order of arrival and over its length, and at most two of them are still missing. -/
theorem C97_exact (as : List ExAct) (s : ExPoll) (h : ExPoll.init.steps as = some s) :
    s.printed = (views [] (foreign as) as).filterMap replyConfig ∧
    (views [] (foreign as) as).map List.length <+: (foreign as).map List.length ∧
    (foreign as).length ≤ (views [] (foreign as) as).length + 2 ∧
    (s.main = .wait → s.reader = .read → (foreign as).length = (views [] (foreign as) as).length) := by
  have hkn := known_of_steps h
  have hk := hkn.saw
  have hp := hkn.feed.prefix
  have hc := views_count [] (foreign as) as (Nat.le_trans hk.count hp.length_le)
  have hfed : (foreign as).length ≤ s.handed.length + 1 ∧ (s.reader = .read → (foreign as).length = s.handed.length) := by
    have := hkn.feed.fed
    split at this
    · rw [this]; exact ⟨by omega, fun _ => rfl⟩
    · rename_i n hr
      rw [← this]; exact ⟨by simp, fun hr' => by rw [hr] at hr'; cases hr'⟩
  have hx : s.printed = (views [] (foreign as) as).filterMap replyConfig ∧ s.handed.length ≤ parses as + 1 ∧
      (s.main = .wait → s.handed.length = parses as) := by
    unfold Saw at hk
    split at hk <;> rename_i hm
    · exact ⟨hk.2.1, by omega, fun _ => hk.1.symm⟩
    · exact ⟨hk.2.1, by omega, fun _ => hk.1.symm⟩
    · obtain ⟨pre, x, h1, _, h3, h4, _⟩ := hk
      exact ⟨h4, by rw [h1, h3]; simp, fun hw => by rw [hm] at hw; cases hw⟩
    · obtain ⟨h0, pre, d, hv, h2, _, ho⟩ := hk
      exact ⟨by rw [hv, h2]; simp [other_not_reply ho], by omega, fun _ => h0.symm⟩
  refine ⟨hx.1, views_lengths _ _ _, ?_, fun hm hr => ?_⟩
  · rw [hc]
    have := hx.2.1
    have := hfed.1
    omega
  · rw [hc, hfed.2 hr, hx.2.2 hm]

/-- The announcement of `b` overwrites that of `a` before it is parsed. -/
def overlayRun : List ExAct :=
  [.read srcA (exampleReply "a"), .hand, .read srcB (exampleReply "b"), .parse, .hand, .parse]

example : ((ExPoll.init.steps overlayRun).map fun s => (s.main, s.printed.map (·.name))) =
    some (.wait, ["b".toUTF8.toList, "b".toUTF8.toList]) ∧
    views [] (foreign overlayRun) overlayRun = [exampleReply "b", exampleReply "b"] := by decide +kernel

/-- C97: if all datagrams that arrive have the same length, each parse finds one of them, whole: what is printed was
announced by some host as it is, though it may be printed twice and another not at all. -/
theorem C97_same_length (as : List ExAct) (s : ExPoll) (l : Nat) (hl : ∀ d ∈ arrived as, d.length = l) (h4 : l ≤ 4096)
    (h : ExPoll.init.steps as = some s) : ∀ c ∈ s.printed, ∃ d ∈ arrived as, replyConfig d = some c := by
  intro c hc
  rw [(C97_exact as s h).1, List.mem_filterMap] at hc
  obtain ⟨v, hv, hr⟩ := hc
  exact ⟨v, views_start (foreign as) h rfl (.inl rfl) hl (foreign_arrived hl h4) v hv, hr⟩

example : ∀ d ∈ arrived overlayRun, d.length = 239 := by decide +kernel

/-- C97: in general example/poll prints what no host announced: a datagram of fourteen bytes, which is not a packet at
all, changes the address of the announcement that is about to be parsed. -/
theorem C97_mixture : ∃ as s, ExPoll.init.steps as = some s ∧
    ∃ c ∈ s.printed, ∀ d ∈ arrived as, replyConfig d ≠ some c := by
  have key : ((ExPoll.init.steps
      [.read srcA (exampleReply "a"), .hand, .read srcB (replyHeader ++ [10, 0, 0, 1]), .parse]).map
        fun s => s.printed.map (·.ip)) = some [[10, 0, 0, 1]] := by decide +kernel
  have key2 : ∀ d ∈ arrived [.read srcA (exampleReply "a"), .hand, .read srcB (replyHeader ++ [10, 0, 0, 1]), .parse],
      (replyConfig d).map (·.ip) ≠ some [10, 0, 0, 1] := by decide +kernel
  cases hs : ExPoll.init.steps
      [.read srcA (exampleReply "a"), .hand, .read srcB (replyHeader ++ [10, 0, 0, 1]), .parse] with
  | none => simp [hs] at key
  | some s =>
    rw [hs] at key
    have key : s.printed.map (·.ip) = [[10, 0, 0, 1]] := Option.some.inj key
    cases hp : s.printed with
    | nil => rw [hp] at key; cases key
    | cons c cs =>
      rw [hp] at key
      have hc : c.ip = [10, 0, 0, 1] := (List.cons.inj key).1
      exact ⟨_, s, hs, c, by rw [hp]; simp, fun d hd hr => key2 d hd (by rw [hr, Option.map_some, hc])⟩

end Verif.Props
