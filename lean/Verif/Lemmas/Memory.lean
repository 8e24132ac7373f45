import Verif.Spec.Memory
import Verif.Spec.Exclusive
import Verif.Lemmas.ConcLin
import Verif.Lemmas.ConcRun
import Verif.Lemmas.ConcTidy
import Verif.Lemmas.ConcFrame
/-
What happens before what: the invariants.
-/
namespace Verif.Conc
open Packet Code Artnet Spec

/-- nodeLock protects it. -/
def guarded : Loc → Bool
  | .tables | .nodes => true
  | _ => false

theorem touches_write {t : Thread} {x : Loc} (h : (x, true) ∈ t.touches) : guarded x = true := by
  cases t with
  | plGot p =>
    simp only [Thread.touches] at h
    split at h
    · cases h
    · simp at h; rcases h with rfl | rfl <;> rfl
  | duTick pend rest now =>
    cases pend <;> cases rest <;> simp [Thread.touches] at h <;> subst h <;> rfl
  | _ => simp [Thread.touches] at h <;> first | (rcases h with rfl | rfl <;> rfl) | (subst h; rfl)

theorem touches_shutdown {t : Thread} {v : Bool} (h : (Loc.shutdown, v) ∈ t.touches) (c : Choice) :
    Obj.shutdownLock ∈ t.acquires c ∧ Obj.shutdownLock ∈ t.releases := by
  cases t with
  | plGot p =>
    simp only [Thread.touches] at h
    split at h
    · cases h
    · simp at h
  | duTick pend rest now => cases pend <;> cases rest <;> simp [Thread.touches] at h
  | slCheck | rdCheck => exact ⟨by cases c <;> simp [Thread.acquires], by simp [Thread.releases]⟩
  | _ => simp [Thread.touches] at h

theorem inSection_holder (t : Thread) : (holder t).isSome = inSection t := by cases t <;> rfl

theorem no_leave {b : Bool} {p : Prop} (h : b = false) (h' : b = true) : p := by rw [h] at h'; cases h'

/-- What a step of a goroutine does with nodeLock. -/
structure Locks (s s' : Sys) (t : Thread) (c : Choice) (t' : Thread) : Prop where
  enter : inSection t' = true → inSection t = true ∨ (t = .duLock ∧ s.lock = false)
  leave : s'.lock = false → s.lock = true → Obj.nodeLock ∈ t.releases ∧ inSection t = true
  touch : ∀ x v, (x, v) ∈ t.touches → guarded x = true →
    (s.lock = false ∧ Obj.nodeLock ∈ t.acquires c ∧
      ((s'.lock = false ∧ Obj.nodeLock ∈ t.releases) ∨ (s'.lock = true ∧ inSection t' = true))) ∨
    (inSection t = true ∧ inSection t' = true ∧ s'.lock = s.lock)

theorem run_locks {P : Params} {s s' : Sys} {i : Nat} {t : Thread} {c : Choice} (ht : s.threads[i]? = some t)
    (h : Run P s i t c s') (hc : s'.crashed = none) :
    ∃ t' ts, s'.threads = s.threads.set i t' ++ ts ∧ (∀ x ∈ ts, inSection x = false) ∧ Locks s s' t c t' := by
  cases h
  case panic => cases hc
  case spawnReader =>
    exact ⟨.rlTop, [.rdTop (List.replicate bufSize 0)], rfl, by simp [inSection],
      ⟨by simp [inSection], no_leave, by simp [Thread.touches]⟩⟩
  case spawnHandler q _ =>
    exact ⟨.rlTop, [.hStart q], rfl, by simp [inSection], ⟨by simp [inSection], no_leave, by simp [Thread.touches]⟩⟩
  case move t' m _ =>
    refine ⟨t', [], by simp [Sys.goto], by simp, ?_, ?_, ?_⟩
    · cases m <;> simp [inSection]
    · exact no_leave
    · cases m <;> simp [Thread.touches, guarded, inSection, Sys.goto]
  case pushSend t' _ _ _ _ _ k =>
    refine ⟨t', [], by simp [Sys.goto, Sys.setCh], by simp, ?_, ?_, ?_⟩
    · cases k <;> simp [inSection]
    · exact no_leave
    · cases k <;> simp [Thread.touches]
  case call t' _ hcl =>
    refine ⟨t', [], by simp [Sys.goto], by simp, ?_, ?_, ?_⟩
    · cases hcl <;> simp [inSection]
    · exact no_leave
    · simp [Thread.touches, guarded]
  case unlock =>
    refine ⟨.duTop, [], by simp [Sys.goto], by simp, ?_, ?_, ?_⟩
    · simp [inSection]
    · simp [Thread.releases, inSection]
    · simp [Thread.touches]
  case lock l now hl _ =>
    refine ⟨_, [], by simp [Sys.goto]; rfl, by simp, ?_, ?_, ?_⟩
    · simp [hl]
    · simp [Sys.goto]
    · intro x v _ _
      exact .inl ⟨hl, by simp [Thread.acquires], .inr ⟨rfl, rfl⟩⟩
  case gc hl =>
    refine ⟨_, [], by simp [Sys.goto]; rfl, by simp, by simp [inSection], by simp [Sys.goto, hl], ?_⟩
    intro x v _ _
    exact .inl ⟨hl, by simp [Thread.acquires], .inl ⟨hl, by simp [Thread.releases]⟩⟩
  case reply hi hl =>
    refine ⟨_, [], by simp [Sys.goto]; rfl, by simp, by simp [inSection], by simp [Sys.goto, hl], ?_⟩
    intro x v _ _
    exact .inl ⟨hl, by simp [Thread.acquires, hi], .inl ⟨hl, by simp [Thread.releases, hi]⟩⟩
  case sendDMX hl =>
    refine ⟨_, [], by simp [Sys.goto]; rfl, by simp, by simp [inSection], by simp [Sys.goto, hl], ?_⟩
    intro x v _ _
    exact .inl ⟨hl, by simp [Thread.acquires], .inl ⟨hl, by simp [Thread.releases]⟩⟩
  case ignore hi =>
    refine ⟨_, [], by simp [Sys.goto]; rfl, by simp, by simp [inSection], ?_, by simp [Thread.touches, hi]⟩
    exact no_leave
  all_goals
    refine ⟨_, [], by simp [Sys.goto, Sys.setCh]; rfl, by simp, by simp [inSection], ?_, ?_⟩
    · exact no_leave
    · simp [Thread.touches, guarded, inSection, Sys.goto, Sys.setCh]

theorem act_locks {P : Params} {s s' : Sys} {a : Act} (hr : ∀ i c, a ≠ .run i c) (h : s.exec P a = some s') :
    ∃ ts, s'.threads = s.threads ++ ts ∧ (∀ x ∈ ts, inSection x = false) ∧ s'.lock = s.lock := by
  unfold Sys.exec at h
  split at h
  · cases h
  · cases a with
    | run i c => exact absurd rfl (hr i c)
    | start =>
      dsimp only at h
      split at h
      · cases h
      · split at h <;> cases h <;> refine ⟨[], ?_, by simp, ?_⟩ <;> (cases P.controller <;>
          simp [Sys.panic, Sys.makeChannels, Sys.resetTables])
    | listen ok =>
      dsimp only at h
      split at h
      · cases h
      · split at h
        · cases h
          refine ⟨P.goroutines, rfl, ?_, rfl⟩
          intro x hx
          rcases List.mem_append.mp hx with hx | hx
          · simp at hx; rcases hx with rfl | rfl | rfl <;> rfl
          · split at hx
            · simp at hx; rcases hx with rfl | rfl <;> rfl
            · cases hx
        · cases h; exact ⟨[], by simp, by simp, rfl⟩
    | stop =>
      dsimp only at h
      split at h
      · cases h
      · split at h <;> (have h := Option.some.inj h; subst h; exact ⟨[], by simp [Sys.panic], by simp, rfl⟩)
    | stopStep =>
      dsimp only at h
      repeat' split at h
      all_goals first | cases h; done | (cases h; exact ⟨[], by simp [Sys.panic], by simp, rfl⟩)
    | register o c =>
      dsimp only at h
      repeat' split at h
      all_goals first | cases h; done | (cases h; exact ⟨[], by simp, by simp, rfl⟩)
    | deregister o =>
      dsimp only at h
      repeat' split at h
      all_goals first | cases h; done | (cases h; exact ⟨[], by simp, by simp, rfl⟩)
    | call d x =>
      dsimp only at h
      split at h
      · cases h; exact ⟨[.caller d x], rfl, by simp [inSection], rfl⟩
      · cases h

theorem before_seen {m : Memory} {a : Act} {k : Nat} (h : m.seen a.who k = true) : m.before a k = true := by
  simp [Memory.before, h]

theorem before_held {m : Memory} {a : Act} {k : Nat} {o : Obj} (ho : o ∈ m.acquires a) (h : m.held o k = true) :
    m.before a k = true := by
  simp only [Memory.before, Bool.or_eq_true, List.any_eq_true]
  exact .inr ⟨o, ho, h⟩

/-- What an action does. -/
structure Does (P : Params) (m : Memory) (a : Act) (m' : Memory) : Prop where
  sys : m.sys.exec P a = some m'.sys
  events : m'.events = m.events ++ [(a.who, m.sys.touches P a)]
  mine : ∀ k, m.before a k = true ∨ k = m.events.length → m'.seen a.who k = true
  fresh : ∀ j k, m.sys.threads.length ≤ j → j < m'.sys.threads.length → m.before a k = true ∨ k = m.events.length →
    m'.seen (some j) k = true
  grow : ∀ w k, (∀ j, w = some j → j < m.sys.threads.length) → m.seen w k = true → m'.seen w k = true
  keep : ∀ o k, m.held o k = true → m'.held o k = true
  release : ∀ o k, o ∈ m.releases a → m.before a k = true ∨ k = m.events.length → m'.held o k = true

theorem memory_does {P : Params} {m m' : Memory} {a : Act} (h : m.exec P a = some m') : Does P m a m' := by
  unfold Memory.exec at h
  split at h
  · cases h
  · rename_i s hs
    have h := Option.some.inj h
    subst h
    refine ⟨hs, rfl, ?_, ?_, ?_, ?_, ?_⟩
    · intro k hk
      simpa using hk
    · intro j k h1 h2 hk
      dsimp only at h2 ⊢
      split
      · simpa using hk
      · simp only [h1, h2, and_self, if_true]
        simpa using hk
    · intro w k hw hk
      dsimp only
      split
      · rename_i he
        subst he
        simp [before_seen hk]
      · cases w with
        | none => exact hk
        | some j =>
          have := hw j rfl
          dsimp only
          rw [if_neg (by omega)]
          exact hk
    · intro o k hk
      dsimp only
      split
      · simp [hk]
      · exact hk
    · intro o k ho hk
      dsimp only
      rw [if_pos ho]
      rcases hk with hk | hk <;> simp [hk]

theorem append_event {α : Type} {l : List α} {e x : α} {k : Nat} (h : (l ++ [e])[k]? = some x) :
    l[k]? = some x ∨ (k = l.length ∧ x = e) := by
  by_cases hk : k < l.length
  · rw [List.getElem?_append_left hk] at h
    exact .inl h
  · rw [List.getElem?_append_right (by omega)] at h
    by_cases h0 : k - l.length = 0
    · rw [h0] at h
      simp at h
      exact .inr ⟨by omega, h.symm⟩
    · rw [List.getElem?_eq_none (by simp; omega)] at h
      cases h

end Verif.Conc
