import Verif.Spec.Missed
import Verif.Props.Controller
/-
C133: how many polls a node may leave unanswered (controller.go:378: "nodes are stale after 5 missed ArtPoll's").
-/
namespace Verif.Props
open Artnet Packet Code Spec

/-- C133: a node that leaves at most four polls in a row without an answer and answers the others at once stays known. -/
def C133_statement : Prop := ∀ (m : Int) (os : List Op) (ip : Bytes) (t : Int), (Ctrl.init m).CanRun os →
  MissesAtMost 4 0 ip os → heardAt ip os = some t → Known ((Ctrl.init m).run os).1 ip

/-- The announcement of a node at 10.0.0.1. -/
def missedReply : ArtPollReply := { ArtPollReply.new with ipAddress := ⟨[10, 0, 0, 1], rfl⟩ }

/-- An announcement at time 0, and a pass of gcNode at time `u`. -/
def missedRun (u : Int) : List Op := [.reply missedReply 0, .gc fun _ => u]

theorem missedRun_can (m u : Int) : (Ctrl.init m).CanRun (missedRun u) := ⟨trivial, trivial, trivial⟩

theorem missedRun_heard (u : Int) : heardAt [10, 0, 0, 1] (missedRun u) = some 0 := by
  show heardAt [10, 0, 0, 1] [.reply missedReply 0] = some 0
  decide +kernel

theorem missedRun_gone {m u : Int} (hu : 7000000000 < u) : ¬ Known ((Ctrl.init m).run (missedRun u)).1 [10, 0, 0, 1] := by
  rintro ⟨r, hr, hip⟩
  refine (C45_silent_node_forgotten m [.reply missedReply 0] ⟨trivial, trivial⟩ [10, 0, 0, 1] (fun _ => u)
    (fun _ _ _ => Int.le_refl _) ?_ [] trivial nofun).1 r hr hip
  intro t ht
  have : heardAt [10, 0, 0, 1] [.reply missedReply 0] = some 0 := by decide +kernel
  rw [this] at ht
  cases ht
  omega

theorem missedRun_misses {n : Nat} {d : Int} (hd : 0 ≤ d) :
    MissesAtMost n d [10, 0, 0, 1] (missedRun (((n : Int) + 1) * pollInterval + d)) := by
  intro pre clock post he t ht
  unfold missedRun at he
  cases pre with
  | nil => cases he
  | cons o pre =>
    cases pre with
    | nil =>
      cases he
      have : heardAt [10, 0, 0, 1] [.reply missedReply 0] = some 0 := by decide +kernel
      rw [this] at ht
      cases ht
      refine ⟨0, ⟨by omega, by omega⟩, fun j => ?_⟩
      rw [Int.zero_add]
      exact Int.le_refl _
    | cons o' pre =>
      have := congrArg List.length he
      simp at this

/-- C133 exactly: nodes that leave up to `n` polls in a row without an answer and whose answers take at most `d` stay known iff
`n + 1` poll intervals and `d` are not more than 7 s: one missed poll and a second, or no missed poll and four seconds. -/
theorem C133_partial (n : Nat) (d : Int) (hd : 0 ≤ d) :
    (∀ (m : Int) (os : List Op) (ip : Bytes) (t : Int), (Ctrl.init m).CanRun os → MissesAtMost n d ip os →
      heardAt ip os = some t → Known ((Ctrl.init m).run os).1 ip) ↔
    (n = 0 ∧ d ≤ 4000000000) ∨ (n = 1 ∧ d ≤ 1000000000) := by
  constructor
  · intro h
    by_cases hu : 7000000000 < ((n : Int) + 1) * pollInterval + d
    · exact absurd (h 40 _ _ _ (missedRun_can 40 _) (missedRun_misses hd) (missedRun_heard _)) (missedRun_gone hu)
    · simp only [pollInterval, second] at hu
      omega
  · intro hn m os ip t h hm ht
    have hg : ∀ pre clock post, os = pre ++ .gc clock :: post → ∀ t, heardAt ip pre = some t →
        ∀ k, clock k ≤ t + 7000000000 := by
      intro pre clock post he u hu j
      obtain ⟨k, hk, hc⟩ := hm pre clock post he u hu
      have h1 := hk.1
      have h2 := hc j
      simp only [pollInterval, second] at h1 h2
      obtain ⟨rfl, _⟩ | ⟨rfl, _⟩ := hn <;> omega
    obtain ⟨r, hr, hip, _⟩ := C44_responsive_node_stays m os h ip hg t ht
    exact ⟨r, hr, hip⟩

theorem C133_false : ¬ C133_statement := by
  intro h
  have := (C133_partial 4 0 (by omega)).mp fun m os ip t => h m os ip t
  omega

/-- A node that misses every second poll meets the condition; one that misses two polls is forgotten when the third is made. -/
example :
    MissesAtMost 1 0 [10, 0, 0, 1] [.reply missedReply 0, .gc fun _ => 3000000000, .gc fun _ => 6000000000, .reply missedReply 6000000000] ∧
    ¬ Known ((Ctrl.init 40).run (missedRun 9000000000)).1 [10, 0, 0, 1] ∧ MissesAtMost 2 0 [10, 0, 0, 1] (missedRun 9000000000) := by
  refine ⟨?_, missedRun_gone (by omega), missedRun_misses (n := 2) (d := 0) (by omega)⟩
  intro pre clock post he t ht
  have h0 : heardAt [10, 0, 0, 1] [.reply missedReply 0] = some 0 := by decide +kernel
  match pre, he with
  | [_], he =>
    cases he
    rw [h0] at ht
    cases ht
    exact ⟨0, ⟨by simp, by simp⟩, fun _ => by simp [pollInterval, second]⟩
  | [_, _], he =>
    cases he
    have : heardAt [10, 0, 0, 1] [.reply missedReply 0, .gc fun _ => 3000000000] = some 0 := h0
    rw [this] at ht
    cases ht
    exact ⟨0, ⟨by simp, by simp⟩, fun _ => by simp [pollInterval, second]⟩
  | [], he => cases he
  | [_, _, _], he => cases he
  | _ :: _ :: _ :: _ :: l, he =>
    have := congrArg List.length he
    simp at this

end Verif.Props
