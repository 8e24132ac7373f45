import Verif.Props.ExactOrder
import Verif.Lemmas.MemoryBlind
/-
Data races in the sense of the Go memory model: C150.
-/
namespace Verif.Props
open Spec Packet Code Artnet Conc

/-! ### C150 -/

/-- C150 as stated: when Start, RegisterCallback and DeregisterCallback are only called while they are refused or after all
goroutines have returned, there is no data race. -/
def C150_statement : Prop := ∀ (P : Params) (as : List Act), Orderly P (Sys.init P) as → RaceFree P (Memory.init P) as

/-- A session in which sendLoop reads the fields of the channels; Stop. -/
def raceSession : List Act := [.start, .listen true, .run 2 .next, .stop]

/-- Stop returns, and so do all goroutines. -/
def raceEnd : List Act := [.stopStep, .stopStep, .run 2 .down, .run 0 .next, .run 0 .next, .run 0 .down, .run 1 .next,
  .run 1 .next, .run 1 .down, .run 3 .next, .run 3 .fail, .run 3 .next]

theorem race_ends {P : Params} (hc : P.controller = false) (hr : P.config.validate = .ok none) :
    ∃ s s', (Sys.init P).execs P raceSession = some s ∧ s.execs P raceEnd = some s' ∧ (∀ t ∈ s'.threads, t = .done) ∧
      ∃ s'', s'.exec P .start = some s'' := by
  simp [raceSession, raceEnd, Sys.execs, Sys.exec, Sys.init, hc, hr, Sys.makeChannels, Params.goroutines,
    Chans.make, Sys.closeConn, Sys.step, Sys.goto, me_eq]

theorem kept {α : Type} {l l' : List α} (h : l <+: l') {k : Nat} {x : α} (hk : l[k]? = some x) : l'[k]? = some x := by
  obtain ⟨r, rfl⟩ := h
  rw [List.getElem?_append_left (List.getElem?_eq_some_iff.mp hk).1, hk]

/-- A Node that is started again: nobody tells the caller of Start that sendLoop has read the fields. -/
theorem node_races {P : Params} (hc : P.controller = false) (hr : P.config.validate = .ok none) :
    Orderly P (Sys.init P) (raceSession ++ (raceEnd ++ [.start])) ∧
    ¬ RaceFree P (Memory.init P) (raceSession ++ (raceEnd ++ [.start])) := by
  obtain ⟨s, s', h1, h2, h3, s'', h4⟩ := race_ends hc hr
  refine ⟨?_, fun hf => ?_⟩
  · refine orderly_append h1 ?_ (orderly_append h2 (orderly_plain ?_) ⟨fun _ _ => h3, fun _ _ => trivial⟩)
    · refine ⟨fun _ _ t ht => (by cases ht), fun a ha => ⟨fun _ hi => ?_, fun b _ => orderly_plain ?_⟩⟩
      · simp [Sys.exec, Sys.init, hc, hr, Sys.makeChannels] at ha
        rw [← ha] at hi
        cases hi
      · intro x hx
        simp only [List.mem_cons, List.not_mem_nil, or_false] at hx
        rcases hx with rfl | rfl <;> exact fun _ => rfl
    · intro x hx
      simp only [raceEnd, List.mem_cons, List.not_mem_nil, or_false] at hx
      rcases hx with rfl | rfl | rfl | rfl | rfl | rfl | rfl | rfl | rfl | rfl | rfl | rfl <;> exact fun _ => rfl
  · obtain ⟨m, hm, rfl⟩ := memory_lift (m := Memory.init P) h1
    obtain ⟨m', hm', rfl⟩ := memory_lift (m := m) h2
    have hf2 := free_append hm' (free_append hm hf)
    obtain ⟨m'', hm'', _⟩ := memory_lift (P := P) (m := m') (as := [.start]) (s := s'') (by simp only [Sys.execs, h4])
    have hst : m'.exec P .start = some m'' := by
      simp only [Memory.execs] at hm''
      split at hm''
      · cases hm''
      · rename_i x hx; cases hm''; exact hx
    refine (hf2 m'' hst).1 2 ?_
    have hs : m.events[2]? = some (some 2, [(.channels, false)]) ∧ m.seen none 2 = false ∧ m.events.length = 4 := by
      revert hm
      simp [raceSession, Memory.execs, Memory.exec, Sys.exec, Memory.init, Sys.init, hc, hr, Sys.makeChannels, Params.goroutines,
        Sys.step, Sys.goto, Act.who, Memory.before, Memory.acquires, Memory.releases, Memory.comm?, Thread.comm?,
        Thread.acquires, Thread.releases, Sys.touches, Thread.touches, Sys.stepLines]
      rintro rfl
      simp
    obtain ⟨h5, h6, h7⟩ := hs
    refine ⟨_, _, .channels, false, true, kept (events_prefix hm') h5, by simp, by simp [Sys.touches, hr, hc], .inr rfl, ?_⟩
    have h8 : m'.seen none 2 = false := by
      refine blind_on hm' ?_ h6 (by omega)
      intro x hx
      simp only [raceEnd, List.mem_cons, List.not_mem_nil, or_false] at hx
      rcases hx with rfl | rfl | rfl | rfl | rfl | rfl | rfl | rfl | rfl | rfl | rfl | rfl <;> rfl
    simp [Memory.before, Act.who, h8, Memory.acquires, Memory.comm?]

theorem C150_false : ¬ C150_statement := by
  intro h
  obtain ⟨h1, h2⟩ := node_races (P := sampleNode) (by decide +kernel) (valid_ok ⟨by decide, by decide, fun i a b ha => by cases ha⟩)
  exact h2 (h _ _ h1)

/-- A caller of SendDMXToAddress has returned when the Controller is started. -/
theorem controller_races {P : Params} (hc : P.controller = true) :
    Orderly P (Sys.init P) [.call fullOn ⟨0, 1⟩, .run 0 .next, .start] ∧
    ¬ RaceFree P (Memory.init P) [.call fullOn ⟨0, 1⟩, .run 0 .next, .start] := by
  have hx : ∃ s, (Sys.init P).execs P [.call fullOn ⟨0, 1⟩, .run 0 .next] = some s ∧ (∀ t ∈ s.threads, t = .done) ∧
      ∃ s', s.exec P .start = some s' := by
    obtain ⟨r, hr, _⟩ := C32_validate P.config
    cases r <;>
    simp [Sys.execs, Sys.exec, Sys.init, hc, hr, Sys.resetTables, Sys.makeChannels, Sys.step, Sys.goto]
  obtain ⟨s, h1, h2, s', h3⟩ := hx
  refine ⟨?_, fun hf => ?_⟩
  · refine orderly_append (as := [.call fullOn ⟨0, 1⟩, .run 0 .next]) h1 (orderly_plain ?_) ⟨fun _ _ => h2, fun _ _ => trivial⟩
    intro x hx
    simp only [List.mem_cons, List.not_mem_nil, or_false] at hx
    rcases hx with rfl | rfl <;> exact fun _ => rfl
  · obtain ⟨m, hm, rfl⟩ := memory_lift (m := Memory.init P) h1
    have hf2 := free_append (as := [.call fullOn ⟨0, 1⟩, .run 0 .next]) hm hf
    obtain ⟨m', hm', _⟩ := memory_lift (P := P) (m := m) (as := [.start]) (s := s') (by simp only [Sys.execs, h3])
    have hst : m.exec P .start = some m' := by
      simp only [Memory.execs] at hm'
      split at hm'
      · cases hm'
      · rename_i x hx; cases hm'; exact hx
    refine (hf2 m' hst).1 1 ?_
    have hs : (∃ ts, m.events[1]? = some (some 0, ts) ∧ (.tables, false) ∈ ts) ∧ m.seen none 1 = false := by
      revert hm
      simp [Memory.execs, Memory.exec, Sys.exec, Memory.init, Sys.init, hc, Sys.step, Sys.goto, Act.who, Memory.before,
        Memory.acquires, Memory.releases, Memory.comm?, Thread.comm?, Thread.acquires, Thread.releases, Sys.touches, Thread.touches]
      rintro rfl
      simp
    obtain ⟨⟨ts, h5, h6⟩, h7⟩ := hs
    exact ⟨_, ts, .tables, false, true, h5, h6, by simp [Sys.touches, hc], .inr rfl,
      by simp [Memory.before, Act.who, h7, Memory.acquires, Memory.comm?]⟩

/-- C150 as far as it holds: in the calls of one session there is no data race. Callbacks are registered before, Start returns, and
Start is not called again and nothing is registered after Stop; SendDMXToAddress may be called in any goroutine after Start has
returned, and Stop at any time. -/
theorem C150_partial {P : Params} {as : List Act} (h : OneSession as) : RaceFree P (Memory.init P) as := one_session_free h

/-- A session with a callback in which a packet is handled and DMX values are sent. -/
def quietSession : List Act := [.register OpCode.opDMX (.user 0)] ++ .start :: .listen true :: [.run 0 .next, .run 1 .next, .run 2 .next] ++
  sampleRead 5 ⟨[2, 0, 0, 2], 6454⟩ samplePoll ++ [.call fullOn ⟨0, 1⟩, .run 7 .next, .run 6 .next, .run 6 .next, .run 6 .next,
    .stop, .stopStep, .stopStep, .stopStep]

example : OneSession quietSession := ⟨[.register OpCode.opDMX (.user 0)], _, _, rfl, by simp, by decide +kernel⟩

example : (((Memory.init sampleController).execs sampleController quietSession).any fun m =>
    m.events.length == 23 && m.sys.calls.length == 1) = true := by decide +kernel

/-- Whatever is called and when: goroutines of the library and callers of SendDMXToAddress are in no data race with each other;
every data race of theirs is with Start, Stop, RegisterCallback or DeregisterCallback. -/
theorem C150_goroutines {P : Params} {as : List Act} {m m' : Memory} {i : Nat} {c : Choice} {k : Nat}
    (h : (Memory.init P).execs P as = some m) (hx : m.exec P (.run i c) = some m') (hr : RacesWith P m (.run i c) k) :
    ∃ ts, m.events[k]? = some (none, ts) := by
  obtain ⟨who, ts, x, v, w, h1, h2, h3, h4, h5⟩ := hr
  cases who with
  | none => exact ⟨ts, h1⟩
  | some j =>
    rw [seen_no_race (seen_execs (seen_init P) h) hx h1 h2 h3 h4] at h5
    cases h5

/-- Start again, while sendLoop of the first session is about to read the fields of the channels. -/
example : ((Memory.init sampleNode).execs sampleNode [.start, .listen true, .stop, .stopStep, .stopStep, .start]).any (fun m =>
    (m.exec sampleNode (.run 2 .next)).isSome && m.events[5]? == some (none, [(.channels, true), (.shutdown, true)]) &&
    m.sys.touches sampleNode (.run 2 .next) == [(.channels, false)] && !m.before (.run 2 .next) 5) = true := by decide +kernel

theorem calls_nodes {P : Params} {s : Sys} {a : Act} (h : a.who = none) (v : Bool) : (Loc.nodes, v) ∉ s.touches P a := by
  cases a with
  | run i c => cases h
  | start => simp only [Sys.touches]; cases P.controller <;> simp <;> (split <;> simp)
  | stopStep => simp only [Sys.touches]; split <;> simp
  | listen ok => cases ok <;> simp only [Sys.touches] <;> cases P.controller <;> simp
  | stop => simp only [Sys.touches]; cases P.controller <;> simp
  | register o f => simp only [Sys.touches]; split <;> simp
  | deregister o => simp only [Sys.touches]; split <;> simp
  | call d x => simp [Sys.touches]

/-- What the life cycle calls have done does not touch the Nodes. -/
theorem events_nodes {P : Params} {as : List Act} {m m' : Memory} (h : m.execs P as = some m')
    (hm : ∀ (k : Nat) ts v, m.events[k]? = some (none, ts) → (Loc.nodes, v) ∉ ts) :
    ∀ (k : Nat) ts v, m'.events[k]? = some (none, ts) → (Loc.nodes, v) ∉ ts := by
  induction as generalizing m with
  | nil => cases h; exact hm
  | cons a as ih =>
    simp only [Memory.execs] at h
    split at h
    · cases h
    · rename_i m1 h1
      refine ih h ?_
      intro k ts v hk
      rw [(memory_does h1).events] at hk
      rcases append_event hk with hk | ⟨rfl, he⟩
      · exact hm k ts v hk
      · simp only [Prod.mk.injEq] at he
        obtain ⟨he, rfl⟩ := he
        exact calls_nodes he.symm v

/-- Whatever is called and when: of two actions that read or write Nodes, what it points to or the buffers the first one happens
before the second. -/
theorem C150_nodes {P : Params} {as : List Act} {m m' : Memory} {a : Act} {k : Nat} {who : Option Nat} {ts : List (Loc × Bool)}
    {v w : Bool} (h : (Memory.init P).execs P as = some m) (hx : m.exec P a = some m') (hk : m.events[k]? = some (who, ts))
    (hv : (.nodes, v) ∈ ts) (hw : (.nodes, w) ∈ m.sys.touches P a) : m.before a k = true := by
  cases who with
  | none => exact absurd hv (events_nodes h (fun k ts v hk => by simp [Memory.init] at hk) k ts v hk)
  | some j =>
    cases a with
    | run i c =>
      obtain ⟨t, ht, _⟩ := run_thread (memory_does hx).sys
      refine seen_no_race (seen_execs (seen_init P) h) hx hk hv hw (.inr ?_)
      rcases touches_run ht hw with h1 | ⟨h1, _⟩
      · cases t <;> simp only [Thread.touches] at h1 <;> (try split at h1) <;> simp at h1 <;> first | exact h1 | exact h1.2
      · cases h1
    | _ => exact absurd hw (calls_nodes rfl w)

/-- Two callers of SendDMXToAddress. -/
example : ((Memory.init sampleController).execs sampleController [.call fullOn ⟨0, 1⟩, .call fullOn ⟨0, 2⟩, .run 1 .next]).any
    (fun m => (m.exec sampleController (.run 0 .next)).isSome &&
      (m.events[2]?).any (fun e => decide ((Loc.nodes, true) ∈ e.2)) &&
      decide ((Loc.nodes, true) ∈ m.sys.touches sampleController (.run 0 .next)) &&
      !m.seen (some 0) 2 && m.before (.run 0 .next) 2) = true := by decide +kernel

/-- C150 for each system: only a Node that cannot be started has the property. -/
theorem C150_exact (P : Params) : (∀ as, Orderly P (Sys.init P) as → RaceFree P (Memory.init P) as) ↔
    (P.controller = false ∧ ¬ ValidConfig P.config) := by
  refine ⟨fun h => ?_, ?_⟩
  · cases hc : P.controller with
    | false => exact ⟨rfl, fun hv => (node_races hc (valid_ok hv)).2 (h _ (node_races hc (valid_ok hv)).1)⟩
    | true => exact absurd (h _ (controller_races hc).1) (controller_races hc).2
  · rintro ⟨hc, hv⟩ as _
    suffices hk : ∀ (as : List Act) (m : Memory), Seen P m → m.sys.threads = [] → RaceFree P m as from hk as _ (seen_init P) rfl
    intro as
    induction as with
    | nil => exact fun _ _ _ => trivial
    | cons a as ih =>
      intro m hs he m' hx
      refine ⟨early_no_race hs he hx, ih m' (seen_exec hs hx) ?_⟩
      have hx := (memory_does hx).sys
      refine exec_quiet hx he ?_ ?_
      · rintro d b rfl
        unfold Sys.exec at hx
        simp [hc] at hx
      · rintro ok rfl
        unfold Sys.exec at hx
        simp [(unstarted hv hs.reach).1] at hx

end Verif.Props
