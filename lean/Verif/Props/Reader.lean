import Verif.Lemmas.ReadRaces
import Verif.Props.Memory
import Verif.Props.Linear
/-
Reading the exported fields of a Controller: C153.
-/
namespace Verif.Props
open Spec Packet Code Artnet Conc

/-- C153: in one session a program may read Nodes, OutputAddress and InputAddress at any time without a data race. -/
def C153_statement : Prop :=
  ∀ (P : Params) (us : List Use), OneSession (actsOf us) → (∀ who x, .read who x ∈ us → Exported x) →
    FreeOfRaces P (Memory.init P) us

/-- A node has been discovered, Stop has returned, and so have all goroutines. -/
def discoverStop : List Act := sampleDiscover ++ [.stop, .stopStep, .stopStep, .stopStep, .run 0 .next, .run 0 .down, .run 1 .next,
  .run 1 .down, .run 2 .down, .run 3 .next, .run 3 .down, .run 4 .next, .run 4 .next, .run 4 .down, .run 5 .next, .run 5 .fail, .run 5 .next]

theorem actsOf_map (as : List Act) (us : List Use) : actsOf (as.map .act ++ us) = as ++ actsOf us := by
  induction as with
  | nil => rfl
  | cons a as ih => simp [actsOf, ih]

theorem free_then {P : Params} {m m' : Memory} {as : List Act} {us : List Use} (h : m.execs P as = some m')
    (hf : FreeOfRaces P m (as.map .act ++ us)) : FreeOfRaces P m' us := by
  induction as generalizing m with
  | nil => cases h; exact hf
  | cons a as ih =>
    simp only [Memory.execs] at h
    split at h
    · cases h
    · rename_i m1 h1
      exact ih h (hf m1 h1).2

theorem discover_stop : ((Memory.init sampleController).execs sampleController discoverStop).any (fun m =>
    m.sys.crashed == none && m.sys.threads.all (· == .done) && m.sys.control == .idle && (m.events[22]? == some (some 3, [(.tables, true), (.nodes, true), (.log, false)])) &&
    !m.seen none 22) = true := by decide +kernel

/-- The field Nodes is read after all goroutines have returned: nothing orders the reading after the writing. -/
theorem C153_false : ¬ C153_statement := by
  intro h
  cases hm : (Memory.init sampleController).execs sampleController discoverStop with
  | none => have := discover_stop; rw [hm] at this; cases this
  | some m =>
    have hd := discover_stop
    rw [hm] at hd
    simp only [Option.any_some, Bool.and_eq_true, beq_iff_eq, Bool.not_eq_true'] at hd
    obtain ⟨⟨⟨⟨h1, _⟩, _⟩, h2⟩, h3⟩ := hd
    have hf := h sampleController (discoverStop.map .act ++ [.read none .nodes])
      (by rw [actsOf_map]; exact ⟨[], true, _, rfl, by simp, by decide +kernel⟩)
      (by
        intro who x hx
        simp at hx
        exact .inl hx.2)
    exact (free_then hm hf (m.read none .nodes) (by simp [Memory.use, h1])).1 22 ⟨_, _, h2, by simp, h3⟩

/-- What is read before Start is in no data race, neither then nor with what happens in the session. -/
theorem C153_partial {P : Params} {pre : List Use} {ok : Bool} {post : List Act}
    (hpre : ∀ u ∈ pre, (∃ o h, u = .act (.register o h) ∨ u = .act (.deregister o)) ∨ ∃ x, u = .read none x)
    (hpost : lastSession post = true) :
    FreeOfRaces P (Memory.init P) (pre ++ .act .start :: .act (.listen ok) :: post.map .act) := early_reads hpre hpost

example : ((Memory.init sampleController).uses sampleController
    (.read none .nodes :: discoverStop.map .act)).any (fun m => m.events.length == 41) = true := by decide +kernel

/-- In one session: what has been written to Nodes and the tables before SendDMXToAddress returns happens before what its caller does
next. -/
theorem C153_send {P : Params} {as : List Act} {m m' : Memory} {i : Nat} {c : Choice} {dmx : Arr 512} {a : Address} {x : Loc}
    (hs : OneSession (as ++ [.run i c])) (h : (Memory.init P).execs P as = some m) (ht : m.sys.threads[i]? = some (.caller dmx a))
    (hx : m.exec P (.run i c) = some m') (he : Exported x) (k : Nat) : ¬ ReadRaces m' (some i) x k := by
  have hd := memory_does hx
  rintro ⟨w, ts, h1, h2, h3⟩
  rw [hd.events] at h1
  rcases append_event h1 with h1 | ⟨h1, _⟩
  · refine free_last h (C150_partial hs) hx k ⟨w, ts, x, true, ?_⟩
    have hno : m.before (.run i c) k = false := by
      cases hb : m.before (.run i c) k
      · rfl
      · have hm := hd.mine k (.inl hb)
        rw [show (Act.run i c).who = some i from rfl, h3] at hm
        cases hm
    rcases he with rfl | rfl
    · exact ⟨true, h1, h2, by simp [Sys.touches, ht, Thread.touches], .inl rfl, hno⟩
    · exact ⟨false, h1, h2, by simp [Sys.touches, ht, Thread.touches], .inl rfl, hno⟩
  · have hm := hd.mine k (.inr h1)
    rw [show (Act.run i c).who = some i from rfl, h3] at hm
    cases hm

/-- A node has been discovered and SendDMXToAddress is called. -/
def discoverSend : List Act := sampleDiscover ++ [.call fullOn ⟨0, 1⟩]

example : OneSession (discoverSend ++ [.run 7 .next]) ∧ ((Memory.init sampleController).execs sampleController discoverSend).any (fun m =>
    m.sys.threads[7]? == some (.caller fullOn ⟨0, 1⟩) && (m.exec sampleController (.run 7 .next)).isSome) = true :=
  ⟨⟨[], true, _, rfl, by simp, by decide +kernel⟩, by decide +kernel⟩

/-- But what the caller reads next is in a data race with what is written later: here the node is forgotten. -/
theorem C153_later : ∃ (as : List Act) (i : Nat) (bs : List Act), OneSession (as ++ bs) ∧
    (∃ m, (Memory.init sampleController).execs sampleController as = some m ∧ m.events.getLast? = some (some i, [(.log, false), (.tables, false), (.nodes, true)])) ∧
    ¬ FreeOfRaces sampleController (Memory.init sampleController) (as.map .act ++ .read (some i) .nodes :: bs.map .act) := by
  let as := discoverSend ++ [.run 7 .next]
  let bs : List Act := [.run 3 .next, .run 3 .gcTick, .run 3 (.clock fun _ => 8 * second)]
  have hd : ((Memory.init sampleController).execs sampleController as).any (fun m =>
      m.events.getLast? == some (some 7, [(.log, false), (.tables, false), (.nodes, true)]) && m.events.length == 25 &&
      (m.use sampleController (.read (some 7) .nodes)).any fun m' =>
        (m'.execs sampleController [.run 3 .next, .run 3 .gcTick]).any fun m'' =>
          m''.events[25]? == some (some 7, [(.nodes, false)]) && !m''.before (.run 3 (.clock fun _ => 8 * second)) 25 &&
          decide ((Loc.nodes, true) ∈ m''.sys.touches sampleController (.run 3 (.clock fun _ => 8 * second))) &&
          (m''.exec sampleController (.run 3 (.clock fun _ => 8 * second))).any fun m3 => m3.sys.ctrl.nodes == []) = true := by
    decide +kernel
  simp only [Option.any_eq_true, Bool.and_eq_true, beq_iff_eq, Bool.not_eq_true', decide_eq_true_eq] at hd
  obtain ⟨m, hm, ⟨hl, _⟩, m', hm', m'', hm'', ⟨⟨h1, h2⟩, h3⟩, m3, h4, _⟩ := hd
  refine ⟨as, 7, bs, ⟨[], true, _, rfl, by simp, by decide +kernel⟩, ⟨m, hm, hl⟩, fun hf => ?_⟩
  have h5 := (free_then hm hf m' hm').2
  exact (free_then (as := [.run 3 .next, .run 3 .gcTick]) (us := [.act (.run 3 (.clock fun _ => 8 * second))]) hm'' h5 m3 h4).1 25
    ⟨_, _, _, _, _, h1, List.mem_cons_self, h3, .inr rfl, h2⟩

end Verif.Props
