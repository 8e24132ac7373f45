import Verif.Lemmas.ConcLin
import Verif.Lemmas.ConcLife
/-
Properties of the receiving side of a Node, over all executions: C60, C61, C63, C69.
-/
namespace Verif.Props
open Spec Packet Code Artnet Conc

/-! ### Sample systems for the examples -/

/-- A node with style `StNode`, address 2.0.0.1 and the default options. -/
def sampleNode : Params := Params.ofNode (newNode [0x6e] StyleCode.stNode [2, 0, 0, 1] [])

/-- A controller with address 2.0.0.1 and the default options. -/
def sampleController : Params := Params.ofController (newController [0x63] [2, 0, 0, 1] [])

/-- Start, and the first steps of the goroutines 0 (pollReplyLoop), 1 (recvLoop), 2 (sendLoop); the reader
gets number 3 (5 for a controller). -/
def sampleStart : List Act := [.start, .listen true, .run 0 .next, .run 1 .next, .run 2 .next]

/-- An ArtPoll datagram. -/
def samplePoll : Bytes := magic ++ [0x00, 0x20, 0, 14, 0, 0]

/-- The reader `i` reads a datagram from `src`, and recvLoop hands it to handlePacket. -/
def sampleRead (i : Nat) (src : UDPAddr) (d : Bytes) : List Act :=
  [.run i .next, .run i (.read src d), .run i .next, .run i .next, .run i .next,
    .run 1 .next, .run 1 .next, .run 1 .next]

/-- Whether a condition holds after the actions. -/
def after (P : Params) (as : List Act) (f : Sys → Bool) : Bool := ((Sys.init P).execs P as).any f

theorem after_reach {P : Params} {as : List Act} {f : Sys → Bool} (h : after P as f = true) :
    ∃ s, Reach P s ∧ (Sys.init P).execs P as = some s ∧ f s = true := by
  simp only [after, Option.any_eq_true] at h
  obtain ⟨s, hs, hf⟩ := h
  exact ⟨s, ⟨as, hs⟩, hs, hf⟩

/-- The action is not a `start` that finds goroutines of earlier sessions. -/
def inTime (s : Sys) : Act → Bool
  | .start => s.threads.all Thread.idle
  | _ => true

/-- The state after actions of which every `start` finds the goroutines of earlier sessions returned. -/
def tidily (P : Params) (s : Sys) : List Act → Option Sys
  | [] => some s
  | a :: as =>
    if inTime s a then
      match s.exec P a with
      | none => none
      | some s => tidily P s as
    else none

/-- The same for such executions. -/
def afterTidy (P : Params) (as : List Act) (f : Sys → Bool) : Bool := (tidily P (Sys.init P) as).any f

theorem tidily_reach {P : Params} {as : List Act} {s s' : Sys} (hr : TidyReach P s) (h : tidily P s as = some s') :
    TidyReach P s' := by
  induction as generalizing s with
  | nil => cases h; exact hr
  | cons a as ih =>
    simp only [tidily] at h
    by_cases hok : inTime s a = true
    · rw [if_pos hok] at h
      cases hx : s.exec P a with
      | none => rw [hx] at h; cases h
      | some s1 =>
        rw [hx] at h
        refine ih (hr.step hx ?_) h
        rintro rfl
        exact List.all_eq_true.mp hok
    · rw [if_neg hok] at h; cases h

theorem afterTidy_reach {P : Params} {as : List Act} {f : Sys → Bool} (h : afterTidy P as f = true) :
    ∃ s, TidyReach P s ∧ f s = true := by
  simp only [afterTidy, Option.any_eq_true] at h
  obtain ⟨s, hs, hf⟩ := h
  exact ⟨s, tidily_reach .init hs, hf⟩

/-- Stop for a Node after `sampleStart`, and the return of its goroutines. -/
def sampleStop : List Act := [.stop, .stopStep, .stopStep, .run 0 .next, .run 0 .down, .run 1 .next, .run 1 .down,
  .run 2 .down, .run 3 .next, .run 3 .fail, .run 3 .next]

/-- Stop for a Controller after `sampleStart`, and the return of its goroutines. -/
def sampleStopC : List Act := [.stop, .stopStep, .stopStep, .stopStep, .run 0 .next, .run 0 .down,
  .run 1 .next, .run 1 .down, .run 2 .down, .run 3 .next, .run 3 .next, .run 3 .next, .run 3 .next, .run 3 .next,
  .run 3 .down, .run 4 .next, .run 4 .next, .run 4 .down, .run 5 .next, .run 5 .fail, .run 5 .next]

/-- A second session is possible after all goroutines have returned. -/
example : afterTidy sampleNode (sampleStart ++ sampleStop ++ [.start, .listen true])
      (fun s => s.chans.length == 2 && s.conns == [false, true] && s.threads.length == 7) = true ∧
    afterTidy sampleController (sampleStart ++ sampleStopC ++ [.start, .listen true])
      (fun s => s.chans.length == 2 && s.conns == [false, true] && s.threads.length == 11) = true ∧
    afterTidy sampleNode (sampleStart ++ sampleStop.take 3 ++ [.start, .listen true]) (fun _ => true) = false := by
  decide +kernel

/-! ### C60 -/

/-- C60: the decodable datagrams accepted from other hosts are, each exactly once, either on their way to
the parser, or being handled, or handed to a call-back, or dropped for want of a call-back. -/
theorem C60_exactly_once {P : Params} {s : Sys} (h : Reach P s) :
    (s.accepted.filterMap decode).Perm
      (s.queued.filterMap decode ++ s.handling ++ s.calls.map (·.2) ++ s.dropped) := by
  rw [List.perm_iff_count]
  intro x
  rw [conservation h x]
  simp only [List.count_append, Sys.queued, Sys.handling, List.filterMap_append, count_flatMap_total,
    List.filterMap_flatMap]
  have h1 : total (wThread x) s.threads = total (fun t => ((t.carried.filterMap decode).count x)) s.threads +
      total (fun t => t.handling.count x) s.threads := by
    generalize s.threads = l
    induction l with
    | nil => rfl
    | cons a l ih => simp only [total_cons, ih, wThread]; omega
  have h2 : total (wChan x) s.chans = total (fun c => (c.recv.filterMap decode).count x) s.chans := rfl
  omega

/-- C60: the datagrams accepted, those just read and those that were thrown away because Stop came first
are the datagrams that arrived from other hosts, each cut to 4096 bytes. -/
theorem C60_arrived {P : Params} {s : Sys} (h : Reach P s) :
    ((s.arrived.filter (fromOther P)).map trunc).Perm
      (s.accepted ++ (s.checking.filter (fromOther P)) ++ (s.lost.filter (fromOther P))) := by
  rw [List.perm_iff_count]
  intro x
  rw [arrived_conservation h x]
  simp only [List.count_append, Sys.checking, List.filter_flatMap, count_flatMap_total]
  rfl

/-- C60: the accepted datagrams that do not decode are logged, each once. -/
theorem C60_undecodable {P : Params} {s : Sys} (h : Reach P s) :
    (s.accepted.filter fun p => (decode p).isNone).Perm
      ((s.queued.filter fun p => (decode p).isNone) ++ s.rejected) := by
  rw [List.perm_iff_count]
  intro x
  refine (rejected_conservation h x).trans ?_
  simp only [List.count_append, Sys.queued, List.filter_append, List.filter_flatMap, count_flatMap_total]
  rfl

/-- C60: a packet is handed to the call-back that is registered for its opcode at that moment, and dropped
only if there is none. -/
theorem C60_registered {P : Params} {s s' : Sys} {a : Act} (he : s.exec P a = some s') :
    (s'.calls = s.calls ∨ ∃ p f, p ∈ s.handling ∧ s.callbacks.get p.getOpCode = some f ∧
      s'.calls = s.calls ++ [(f, p)]) ∧
    (s'.dropped = s.dropped ∨ ∃ p, p ∈ s.handling ∧ s.callbacks.get p.getOpCode = none ∧
      s'.dropped = s.dropped ++ [p]) := by
  have hm : ∀ {i : Nat} {p}, s.threads[i]? = some (.hStart p) → p ∈ s.handling := by
    intro i p ht
    exact List.mem_flatMap.mpr ⟨_, List.mem_of_getElem? ht, List.mem_singleton.mpr rfl⟩
  cases (exec_Step he).2 with
  | call ht hh hc => exact ⟨.inr ⟨_, _, hm ht, hh, rfl⟩, .inl rfl⟩
  | drop ht hh => exact ⟨.inl rfl, .inr ⟨_, hm ht, hh, rfl⟩⟩
  | startPanic | startFail | start =>
    simp only [Sys.reset, Sys.panic, Sys.makeChannels, Sys.resetTables]
    split <;> exact ⟨.inl rfl, .inl rfl⟩
  | _ => exact ⟨.inl rfl, .inl rfl⟩

/-- C60: no packet is handed to call-backs more often than datagrams with it arrived from other hosts. -/
theorem C60_no_duplicates {P : Params} {s : Sys} (h : Reach P s) (x : AnyPacket) :
    (s.calls.map (·.2)).count x ≤ (((s.arrived.filter (fromOther P)).map trunc).filterMap decode).count x := by
  have h1 := (C60_exactly_once h).count_eq x
  have h2 := ((C60_arrived h).filterMap decode).count_eq x
  simp only [List.filterMap_append, List.count_append] at h1 h2
  omega

/-- A datagram goes all the way: an ArtPoll from 2.0.0.2 leads to one call of the built-in call-back. -/
example : after sampleNode (sampleStart ++ sampleRead 3 ⟨[2, 0, 0, 2], 6454⟩ samplePoll ++ [.run 4 .next])
    (fun s => s.calls.length == 1 && s.accepted.length == 1 && s.dropped.length == 0) = true := by
  decide +kernel

/-! ### C61 -/

/-- C61: the comparison with the own address is the intended one. -/
theorem C61_comparison (a b : Bytes) : ipEqual a b = true ↔ SameAddress a b := by
  have hp : ∀ (x y : Bytes), x.length = 4 → y.length = 16 →
      ((y.take 12 = v4InV6Prefix ∧ x = y.drop 12) ↔
        y = [0, 0, 0, 0, 0, 0, 0, 0, 0, 0, 0xff, 0xff] ++ x) := by
    intro x y _ hy
    constructor
    · rintro ⟨h1, h2⟩
      rw [h2]
      exact (List.take_append_drop 12 y).symm.trans (by rw [h1]; rfl)
    · intro h
      subst h
      exact ⟨rfl, rfl⟩
  simp only [ipEqual, SameAddress]
  split
  · rename_i hl
    constructor
    · intro h; exact .inl (eq_of_beq h)
    · rintro (h | ⟨h1, h2⟩ | ⟨h1, h2⟩)
      · exact beq_iff_eq.mpr h
      · rw [h2] at hl; simp at hl; omega
      · rw [h2] at hl; simp at hl; omega
  · rename_i hl
    split
    · rename_i h
      simp only [Bool.and_eq_true, beq_iff_eq]
      rw [hp a b h.1 h.2]
      constructor
      · intro hb; exact .inr (.inl ⟨h.1, hb⟩)
      · rintro (h' | ⟨_, h'⟩ | ⟨h', _⟩)
        · exact absurd (congrArg List.length h') hl
        · exact h'
        · omega
    · rename_i h4
      split
      · rename_i h
        simp only [Bool.and_eq_true, beq_iff_eq]
        have := hp b a h.2 h.1
        constructor
        · rintro ⟨h1, h2⟩; exact .inr (.inr ⟨h.2, this.mp ⟨h1, h2.symm⟩⟩)
        · rintro (h' | ⟨h', _⟩ | ⟨_, h'⟩)
          · exact absurd (congrArg List.length h') hl
          · omega
          · exact ⟨(this.mpr h').1, (this.mpr h').2.symm⟩
      · rename_i h5
        simp only [Bool.false_eq_true, false_iff]
        rintro (h' | ⟨h1, h2⟩ | ⟨h1, h2⟩)
        · exact absurd (congrArg List.length h') hl
        · exact h4 ⟨h1, by rw [h2]; simp [h1]⟩
        · exact h5 ⟨by rw [h2]; simp [h1], h1⟩

/-- C61: every packet handed to a call-back was decoded from a datagram that arrived from another address
than the node's own. -/
theorem C61_own_ignored {P : Params} {s : Sys} (h : Reach P s) :
    ∀ c ∈ s.calls, ∃ p ∈ s.arrived, ¬ SameAddress P.localIP p.address.ip ∧
      decode (trunc p) = some c.2 := by
  intro c hc
  have h1 := C60_no_duplicates h c.2
  have h2 : 0 < (s.calls.map (·.2)).count c.2 :=
    List.count_pos_iff.mpr (List.mem_map.mpr ⟨c, hc, rfl⟩)
  have h3 := List.count_pos_iff.mp (Nat.lt_of_lt_of_le h2 h1)
  obtain ⟨q, hq, hd⟩ := List.mem_filterMap.mp h3
  obtain ⟨p, hp, rfl⟩ := List.mem_map.mp hq
  obtain ⟨hp, ho⟩ := List.mem_filter.mp hp
  refine ⟨p, hp, ?_, hd⟩
  rw [← C61_comparison]
  simpa [fromOther] using ho

/-- An ArtPoll from the own address, here in 16-byte form, goes nowhere. -/
example : after sampleNode (sampleStart ++ [.run 3 .next,
      .run 3 (.read ⟨[0, 0, 0, 0, 0, 0, 0, 0, 0, 0, 0xff, 0xff, 2, 0, 0, 1], 6454⟩ samplePoll),
      .run 3 .next])
    (fun s => s.arrived.length == 1 && s.accepted.length == 0) = true := by
  decide +kernel

/-! ### C63 -/

/-- C63: a node that is not a controller never forwards an ArtPollReply. -/
theorem C63_only_controllers {P : Params} (hp : P.config.type ≠ StyleCode.stController) {s : Sys}
    (h : Reach P s) : ∀ c ∈ s.chans, c.pollReply = [] := (no_replies hp h).2

/-- C63: neither is any goroutine about to. -/
theorem C63_no_handler {P : Params} (hp : P.config.type ≠ StyleCode.stController) {s : Sys}
    (h : Reach P s) : ∀ t ∈ s.threads, (∀ p, t ≠ .hReplyTop p) ∧ ∀ g p, t ≠ .hReply g p := by
  intro t ht
  have := (no_replies hp h).1 t ht
  constructor
  · intro p h'; rw [h'] at this; cases this
  · intro g p h'; rw [h'] at this; cases this

example : sampleNode.config.type ≠ StyleCode.stController ∧
    sampleController.config.type = StyleCode.stController := by decide

/-! ### C69 -/

/-- C69: every payload on its way to the parser, at any moment, is a datagram that arrived, cut to 4096
bytes. -/
theorem C69_isolated {P : Params} {s : Sys} (h : Reach P s) :
    ∀ p ∈ s.queued, ∃ d ∈ s.arrived, p.address = d.address ∧ p.data = d.data.take 4096 := by
  intro p hp
  have h1 : p ∈ s.accepted := by
    rw [← List.count_pos_iff]
    refine Nat.lt_of_lt_of_le ?_ (queued_accepted h p)
    rw [← List.count_pos_iff] at hp
    simp only [Sys.queued, List.count_append, count_flatMap_total] at hp
    exact hp
  have h2 : p ∈ (s.arrived.filter (fromOther P)).map trunc :=
    (C60_arrived h).mem_iff.mpr (by simp [h1])
  obtain ⟨d, hd, rfl⟩ := List.mem_map.mp h2
  exact ⟨d, (List.mem_filter.mp hd).1, rfl, rfl⟩

/-- C69: so is every payload that was accepted in the past, and nothing that was accepted changes later. -/
theorem C69_accepted_fixed {P : Params} {s s' : Sys} {a : Act} (h : Reach P s) (he : s.exec P a = some s') :
    (∀ p ∈ s.accepted, ∃ d ∈ s.arrived, p.address = d.address ∧ p.data = d.data.take 4096) ∧
    ∃ l, s'.accepted = s.accepted ++ l := by
  constructor
  · intro p hp
    have h2 : p ∈ (s.arrived.filter (fromOther P)).map trunc :=
      (C60_arrived h).mem_iff.mpr (by simp [hp])
    obtain ⟨d, hd, rfl⟩ := List.mem_map.mp h2
    exact ⟨d, (List.mem_filter.mp hd).1, rfl, rfl⟩
  · cases (exec_Step he).2 with
    | accept ht => exact ⟨_, rfl⟩
    | startPanic | startFail | start =>
      simp only [Sys.reset, Sys.panic, Sys.makeChannels, Sys.resetTables]
      split <;> exact ⟨[], (List.append_nil _).symm⟩
    | _ => exact ⟨[], (List.append_nil _).symm⟩

/-- A long datagram followed by a short one: both payloads are intact. -/
example : after sampleNode (sampleStart ++
      [.run 3 .next, .run 3 (.read ⟨[2, 0, 0, 2], 6454⟩ [1, 2, 3]), .run 3 .next, .run 3 .next, .run 3 .next,
       .run 3 .next, .run 3 (.read ⟨[2, 0, 0, 2], 6454⟩ [9]), .run 3 .next, .run 3 .next, .run 3 .next])
    (fun s => s.queued.map (·.data) == [[1, 2, 3], [9]]) = true := by
  decide +kernel

end Verif.Props
