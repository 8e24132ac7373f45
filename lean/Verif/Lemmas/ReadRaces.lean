import Verif.Spec.Reader
import Verif.Lemmas.MemorySession
import Verif.Lemmas.MemoryBlind
/-
Reading exported fields.
-/
namespace Verif.Conc
open Packet Code Artnet Spec

/-- What the goroutine of the life cycle calls reads leaves the invariant. -/
theorem seen_read {P : Params} {m : Memory} (hs : Seen P m) (x : Loc) : Seen P (m.read none x) := by
  have hold : ∀ (k j : Nat) ts, (m.read none x).events[k]? = some (some j, ts) → m.events[k]? = some (some j, ts) := by
    intro k j ts h
    rcases append_event h with h | ⟨_, h⟩
    · exact h
    · cases h
  have hsome : ∀ j, (m.read none x).seen (some j) = m.seen (some j) := fun _ => rfl
  refine ⟨hs.reach, ?_, ?_, ?_, ?_, ?_, ?_⟩
  · intro k j ts h
    rw [hsome]
    exact hs.own k j ts (hold k j ts h)
  · intro k ts h
    rcases append_event h with h | ⟨h, _⟩
    · simp [Memory.read, hs.ctl k ts h]
    · simp [Memory.read, h]
  · intro k j ts y h
    exact hs.writes k j ts y (hold k j ts h)
  · intro k j ts v h
    exact hs.shut k j ts v (hold k j ts h)
  · intro hc k j ts y v h
    exact hs.free hc k j ts y v (hold k j ts h)
  · intro hc k j ts y v h hx hg i t ht hi
    rw [hsome]
    exact hs.inside hc k j ts y v (hold k j ts h) hx hg i t ht hi

theorem free_acts {P : Params} {m : Memory} {as : List Act} (h : RaceFree P m as) : FreeOfRaces P m (as.map .act) := by
  induction as generalizing m with
  | nil => trivial
  | cons a as ih => exact fun m' hx => ⟨(h m' hx).1, ih (h m' hx).2⟩

/-- Reading before Start. -/
theorem early_reads {P : Params} {pre : List Use} {ok : Bool} {post : List Act}
    (hpre : ∀ u ∈ pre, (∃ o h, u = .act (.register o h) ∨ u = .act (.deregister o)) ∨ ∃ x, u = .read none x)
    (hpost : lastSession post = true) :
    FreeOfRaces P (Memory.init P) (pre ++ .act .start :: .act (.listen ok) :: post.map .act) := by
  suffices key : ∀ m : Memory, Seen P m → m.sys.threads = [] →
      FreeOfRaces P m (pre ++ .act .start :: .act (.listen ok) :: post.map .act) from key _ (seen_init P) rfl
  induction pre with
  | nil =>
    intro m hs he m1 h1
    refine ⟨early_no_race hs he h1, ?_⟩
    have hs1 := seen_exec hs h1
    have he1 := exec_quiet (memory_does h1).sys he nofun nofun
    intro m2 h2
    have hup : m1.sys.shutdown = false := start_up (memory_does h1).sys (memory_does h2).sys
    exact ⟨early_no_race hs1 he1 h2,
      free_acts (session_free (session_begins hs1 he1 h2) (exec_up (memory_does h2).sys hup nofun) hpost)⟩
  | cons u pre ih =>
    intro m hs he
    have ih := ih fun v hv => hpre v (List.mem_cons_of_mem _ hv)
    rcases hpre u List.mem_cons_self with ⟨o, f, rfl | rfl⟩ | ⟨x, rfl⟩
    · exact fun m1 h1 => ⟨early_no_race hs he h1, ih m1 (seen_exec hs h1) (exec_quiet (memory_does h1).sys he nofun nofun)⟩
    · exact fun m1 h1 => ⟨early_no_race hs he h1, ih m1 (seen_exec hs h1) (exec_quiet (memory_does h1).sys he nofun nofun)⟩
    · intro m1 h1
      simp only [Memory.use] at h1
      split at h1
      · cases h1
        refine ⟨?_, ih _ (seen_read hs x) he⟩
        rintro k ⟨w, ts, h2, _, h3⟩
        cases w with
        | some j =>
          have := (hs.own k j ts h2).2
          rw [he] at this
          simp at this
        | none => rw [hs.ctl k ts h2] at h3; cases h3
      · cases h1

theorem free_last {P : Params} {m m' : Memory} {as : List Act} {a : Act} (h : m.execs P as = some m') (hf : RaceFree P m (as ++ [a]))
    {m'' : Memory} (hx : m'.exec P a = some m'') (k : Nat) : ¬ RacesWith P m' a k := by
  induction as generalizing m with
  | nil => cases h; exact (hf m'' hx).1 k
  | cons b as ih =>
    simp only [Memory.execs] at h
    split at h
    · cases h
    · rename_i m1 h1
      exact ih h (hf m1 h1).2

end Verif.Conc
