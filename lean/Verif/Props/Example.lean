import Verif.Lemmas.Example
import Verif.Props.Decode
import Verif.Props.Encode
/-
The programs under example/ (C95-C98).
-/
namespace Verif.Props
open Artnet Packet Code Spec Example

/-! ### C95 -/

/-- C95: the node and the controller of example/ work with the first address of the host within 2.0.0.0/8; on a host
without such an address with the last address of the list; without any address, with none. -/
theorem C95_example_address (addrs : List Bytes) :
    (∀ pre a post, addrs = pre ++ a :: post → (∀ x ∈ pre, ¬ InTwo x) → InTwo a →
      (exampleNode addrs).config.ip = a ∧ (exampleController addrs).cNode.config.ip = a) ∧
    ((∀ x ∈ addrs, ¬ InTwo x) →
      (exampleNode addrs).config.ip = addrs.getLast?.getD [] ∧
      (exampleController addrs).cNode.config.ip = addrs.getLast?.getD []) := by
  have hn : (exampleNode addrs).config.ip = chooseIP addrs := rfl
  have hc : (exampleController addrs).cNode.config.ip = chooseIP addrs := rfl
  rw [hn, hc]
  constructor
  · rintro pre a post rfl hp ha
    exact ⟨chooseFrom_first _ _ _ _ hp ha, chooseFrom_first _ _ _ _ hp ha⟩
  · intro h
    exact ⟨chooseFrom_last _ _ h, chooseFrom_last _ _ h⟩

example : ∀ x ∈ ([[127, 0, 0, 1], [192, 168, 0, 7]] : List Bytes), ¬ InTwo x := by decide
example : InTwo [2, 0, 0, 7] ∧ InTwo (v4InV6Prefix ++ [2, 0, 0, 7]) := by decide
example : (exampleNode [[127, 0, 0, 1], v4InV6Prefix ++ [2, 0, 0, 7], [2, 0, 0, 8]]).config.ip =
    v4InV6Prefix ++ [2, 0, 0, 7] := by decide +kernel

/-- C95: on a host without an address in 2.0.0.0/8 whose last address is an IPv6 one, the node of example/node
announces 0.0.0.0, whatever IPv4 addresses the host has. -/
theorem C95_announces_zero (addrs : List Bytes) (a : Bytes) (h : ∀ x ∈ addrs, ¬ InTwo x)
    (hl : addrs.getLast? = some a) (h16 : a.length = 16) (h6 : a.take 12 ≠ v4InV6Prefix) :
    ∃ r, artPollReplyFromConfig (exampleNode addrs).config = .ok r ∧ r.ipAddress.val = [0, 0, 0, 0] := by
  have hip : (exampleNode addrs).config.ip = a := by rw [((C95_example_address addrs).2 h).1, hl]; rfl
  have ht : to4 a = [] := by
    rw [to4, if_neg (by omega), if_neg fun h => h6 h.2]
  refine ⟨_, rfl, ?_⟩
  show ((Arr.zero 4).copyFrom (to4 (exampleNode addrs).config.ip)).val = _
  rw [hip, ht]
  rfl

example : ∃ a : Bytes, [[192, 168, 0, 7], a].getLast? = some a ∧ a.length = 16 ∧ a.take 12 ≠ v4InV6Prefix ∧
    ∀ x ∈ [[192, 168, 0, 7], a], ¬ InTwo x :=
  ⟨[0xfe, 0x80, 0, 0, 0, 0, 0, 0, 0, 0, 0, 0, 0, 0, 0, 1], by decide⟩

/-! ### C96, C97 -/

/-- C96 as stated: example/poll does not panic. -/
def C96_statement : Prop :=
  ∀ as s, ExPoll.init.steps as = some s → s.main ≠ .panicked

/-- C97 as stated: whenever the main goroutine waits, it has printed exactly the announcements among the datagrams that
it has received, as they arrived. -/
def C97_statement : Prop :=
  ∀ as s, ExPoll.init.steps as = some s → s.main = .wait → s.printed = s.handed.filterMap replyConfig

/-- The announcement of a node of that name, and an ArtPoll. -/
def exampleReply (name : String) : Bytes :=
  match artPollReplyFromConfig (newNode name.toUTF8.toList StyleCode.stNode [2, 0, 0, 9] []).config with
  | .ok r => (r.marshalBinary).2.1
  | .error _ => []

def srcA : UDPAddr := ⟨[2, 0, 0, 9], 6454⟩
def srcB : UDPAddr := ⟨[2, 0, 0, 10], 6454⟩
def srcOwn : UDPAddr := ⟨[2, 12, 12, 12], 6454⟩

theorem C96_false : ¬ C96_statement := by
  intro h
  have key : ((ExPoll.init.steps [.read srcA examplePollSent, .hand, .parse]).map (·.main)) = some .panicked := by
    decide +kernel
  cases hs : ExPoll.init.steps [.read srcA examplePollSent, .hand, .parse] with
  | none => simp [hs] at key
  | some s => simp [hs] at key; exact h _ s hs key

/-- C96: the echo of the program's own ArtPoll suffices, although the program skips it: it overwrites the announcement
that the main goroutine is about to parse. -/
theorem C96_own_echo : ∃ as s, ExPoll.init.steps as = some s ∧ s.main = .panicked ∧
    ∀ d ∈ foreign as, (replyConfig d).isSome = true := by
  have key : ((ExPoll.init.steps [.read srcA (exampleReply "a"), .hand, .read srcOwn examplePollSent, .parse]).map (·.main))
      = some .panicked := by decide +kernel
  cases hs : ExPoll.init.steps [.read srcA (exampleReply "a"), .hand, .read srcOwn examplePollSent, .parse] with
  | none => simp [hs] at key
  | some s =>
    simp [hs] at key
    exact ⟨_, s, hs, key, by decide +kernel⟩

/-- C96, the part that holds: if nothing is read between a communication and the parse that follows it, example/poll
panics exactly when it parses a packet of another kind; what it parses are the datagrams of other hosts as they arrived,
in order. Missing: executions in which datagrams of another kind arrive, and those in which a later datagram overwrites
one that is about to be parsed. -/
theorem C96_partial (as : List ExAct) (s : ExPoll) (hc : calm false as = true) (h : ExPoll.init.steps as = some s) :
    s.handed <+: foreign as ∧
    (s.main = .panicked → ∃ pre d, s.handed = pre ++ [d] ∧ OtherPacket d ∧ ∀ x ∈ pre, ¬ OtherPacket x) ∧
    (s.main = .wait ∨ s.main = .done → ∀ x ∈ s.handed, ¬ OtherPacket x) := by
  obtain ⟨b, hh⟩ := heard_of_steps init_heard hc h
  refine ⟨?_, ?_, ?_⟩
  · have := (feed_of_steps h).fed
    split at this
    · rw [this]; exact List.prefix_rfl
    · exact ⟨_, this⟩
  · intro hm
    rw [Heard, hm] at hh
    obtain ⟨pre, d, h1, _, h3, h4⟩ := hh
    exact ⟨pre, d, h1, h4, h3⟩
  · rintro (hm | hm) <;> (rw [Heard, hm] at hh; exact hh.2)

/-- C96: if every datagram that arrives, from whatever host, starts with the header of an announcement, example/poll
does not panic, however the goroutines are interleaved. -/
theorem C96_replies (as : List ExAct) (s : ExPoll)
    (hr : ∀ src d, ExAct.read src d ∈ as → d.take 10 = replyHeader) (h : ExPoll.init.steps as = some s) :
    s.main ≠ .panicked :=
  (headed_of_steps ⟨List.length_replicate, by nofun, by nofun, by nofun⟩ hr h).alive

example : (exampleReply "a").take 10 = replyHeader ∧ (exampleReply "a").length = 239 := by decide +kernel

/-- Two announcements, a datagram that is not a packet, and the echo of the ArtPoll. -/
def exampleRun : List ExAct :=
  [.read srcOwn examplePollSent, .read srcA (exampleReply "a"), .hand, .parse, .readError, .read srcB [1, 2, 3], .hand,
    .parse, .read srcB (exampleReply "b"), .hand, .parse, .timeout]

example : calm false exampleRun = true ∧ ((ExPoll.init.steps exampleRun).map (·.printed.map (·.name))) =
    some ["a".toUTF8.toList, "b".toUTF8.toList] := by decide +kernel

theorem C97_false : ¬ C97_statement := by
  intro h
  have key : ((ExPoll.init.steps [.read srcA (exampleReply "a"), .hand, .read srcB (exampleReply "b"), .parse]).map
      fun s => (s.main, s.printed.map (·.name), s.handed.filterMap fun d => (replyConfig d).map (·.name))) =
      some (.wait, ["b".toUTF8.toList], ["a".toUTF8.toList]) := by decide +kernel
  cases hs : ExPoll.init.steps [.read srcA (exampleReply "a"), .hand, .read srcB (exampleReply "b"), .parse] with
  | none => simp [hs] at key
  | some s =>
    rw [hs] at key
    simp only [Option.map_some, Option.some.injEq, Prod.mk.injEq] at key
    obtain ⟨k1, k2, k3⟩ := key
    have := h _ s hs k1
    rw [this, List.map_filterMap] at k2
    rw [k2] at k3
    exact absurd k3 (by decide +kernel)

/-- C97: whatever the interleaving, the datagrams of other hosts are handed to the main goroutine as they arrived, in
order, each one once; at most the last is still to be handed over. -/
theorem C97_handed (as : List ExAct) (s : ExPoll) (h : ExPoll.init.steps as = some s) :
    s.handed <+: foreign as ∧ (foreign as).length ≤ s.handed.length + 1 := by
  have := (feed_of_steps h).fed
  split at this
  · rw [this]; exact ⟨List.prefix_rfl, by omega⟩
  · exact ⟨⟨_, this⟩, by rw [← this]; simp⟩

/-- C97, the part that holds: if nothing is read between a communication and the parse that follows it, the program has
printed exactly the announcements among the datagrams that it has received. Missing: executions in which a later
datagram is read before the previous one is parsed. -/
theorem C97_partial (as : List ExAct) (s : ExPoll) (hc : calm false as = true) (h : ExPoll.init.steps as = some s)
    (hm : s.main = .wait ∨ s.main = .done) : s.printed = s.handed.filterMap replyConfig := by
  obtain ⟨b, hh⟩ := heard_of_steps init_heard hc h
  rcases hm with hm | hm <;> (rw [Heard, hm] at hh; exact hh.1)

/-! ### C98 -/

/-- C98: what example/poll broadcasts is understood as an ArtPoll, and what example/simpledmx sends as 512 channels for
universe 0 of net 0 with channels 1 and 4 full and all others zero. -/
theorem C98_examples_understood :
    (∃ q, unmarshal examplePollSent = .ok (some (.poll q), none) ∧ examplePollSent.length = 14) ∧
    (∃ q, unmarshal exampleDMX = .ok (some (.dmx q), none) ∧ q.sequence = 1 ∧ q.subUni = 0 ∧ q.net = 0 ∧
      q.length = 512 ∧ ∀ i : Fin 512, q.data.get i = if i.val = 0 ∨ i.val = 3 then 0xff else 0) := by
  constructor
  · exact ⟨_, ArtPoll.roundtrip _, by decide +kernel⟩
  · obtain ⟨q, h1, h2, _, h4, h5, h6, h7, _⟩ := C02_dmx_round_trip
      { ArtDMX.new with sequence := 1, data := (Arr.zero 512).copyFrom [0xff, 0x00, 0x00, 0xff, 0x00] }
    refine ⟨q, h1, h2, h4, h5, h7, ?_⟩
    rw [h6]
    decide +kernel

end Verif.Props
