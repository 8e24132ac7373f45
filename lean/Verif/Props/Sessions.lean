import Verif.Lemmas.Sessions
import Verif.Props.Callers
/-
Results of Start when several goroutines make calls: C141.
-/
namespace Verif.Props
open Packet Code Artnet Callers

/-! ### C141 -/

/-- C141 as stated: when every call has returned, the loops have been begun once for every Start that returned nil, and not
otherwise. -/
def C141_statement : Prop := ∀ (P : Conc.Params) (as : List Act) (s : State), State.init.execs P as = some s → s.quiet →
  s.shared.loops = s.calls.countP succeeded ∧ (P.controller = true → s.shared.cloops = s.calls.countP succeeded)

/-- Start of a Controller fails because the address is in use; a later Start begins the loops and reports that old error. -/
def oldError : List Act := [.call .start] ++ on 0 8 ++ [.go 0 false] ++ on 0 1 ++ [.call .start] ++ on 1 14

theorem C141_false : ¬ C141_statement := by
  intro h
  have hw : ran sampleController oldError (fun s => s.crashed.isNone && allReturned s && s.shared.loops == 1 &&
      s.calls.countP succeeded == 0) = true := by decide +kernel
  obtain ⟨s, hx, _, hs⟩ := ran_reach hw
  simp only [Bool.and_eq_true, beq_iff_eq] at hs
  obtain ⟨⟨⟨_, h2⟩, h3⟩, h4⟩ := hs
  have := (h _ _ s hx (quiet_of h2)).1
  rw [h3, h4] at this
  cases this

/-- C141 as far as it holds: of a Node always, and of a Controller as long as no call of net.ListenPacket has failed. The
calls may overlap in any way. -/
theorem C141_partial {P : Conc.Params} {as : List Act} {s : State} (hx : State.init.execs P as = some s) (hq : s.quiet)
    (hc : P.controller = false ∨ ∀ i, Act.go i false ∉ as) :
    s.shared.loops = s.calls.countP succeeded ∧
    s.shared.cloops = if P.controller then s.calls.countP succeeded else 0 := by
  have hu := up_reach ⟨as, hx⟩
  have e1 := up_quiet hq up (.inl rfl)
  have e2 := up_quiet hq upC (.inr rfl)
  by_cases hp : P.controller = true
  · have hcl : Clean s := by
      rcases hc with hc | hc
      · rw [hp] at hc; cases hc
      · exact clean_execs ⟨[], rfl⟩ ⟨rfl, nofun⟩ hc hx
    obtain ⟨h1, h2⟩ := hu.clean hcl.1
    rw [if_pos hp, ← e1, e1, ← e2, h2 hp, h1, e1, e2]
    exact ⟨rfl, rfl⟩
  · obtain ⟨h1, h2⟩ := hu.node (by simpa using hp)
    rw [if_neg hp, ← e1]
    exact ⟨h1, h2⟩

/-- Whatever fails and however the calls overlap: Start does not return nil without having begun the loops. -/
theorem C141_sound {P : Conc.Params} {s : State} (h : Reach P s) :
    s.calls.countP succeeded ≤ s.shared.loops ∧
    (P.controller = true → s.calls.countP succeeded ≤ s.shared.cloops) := by
  have hu := up_reach h
  refine ⟨Nat.le_trans (List.countP_mono_left fun c _ hc => ?_) hu.most,
    fun hp => Nat.le_trans (List.countP_mono_left fun c _ hc => ?_) (hu.mostC hp)⟩
  all_goals
    unfold succeeded at hc
    split at hc
    · rfl
    · cases hc

/-- Two overlapping Starts of a Controller and one Stop: two sets of loops, two successes. -/
example : ran sampleController ([.call .start, .call .start] ++ on 0 9 ++ on 1 14 ++ on 0 5 ++ [.call .stop] ++ on 2 10)
    (fun s => s.crashed.isNone && allReturned s && s.shared.loops == 2 && s.shared.cloops == 2 &&
      s.calls.countP succeeded == 2) = true := by decide +kernel

/-- A Node whose first Start fails: one session, one success, one refusal. -/
example : ran sampleNode ([.call .start] ++ on 0 7 ++ [.go 0 false] ++ on 0 1 ++ [.call .start] ++ on 1 10)
    (fun s => s.crashed.isNone && allReturned s && s.shared.loops == 1 && s.calls.countP succeeded == 1 &&
      s.calls.countP refused == 1) = true := by decide +kernel

end Verif.Props
