import Verif.Lemmas.MemorySession
import Verif.Spec.Race
/-
What the goroutine of the life cycle calls does not see.
-/
namespace Verif.Conc
open Packet Code Artnet Spec

theorem memory_append {P : Params} {m : Memory} (as bs : List Act) :
    m.execs P (as ++ bs) = (m.execs P as).bind fun m => m.execs P bs := by
  induction as generalizing m with
  | nil => rfl
  | cons a as ih =>
    simp only [List.cons_append, Memory.execs]
    split
    · rfl
    · exact ih

/-- What the program can do it can do here. -/
theorem memory_lift {P : Params} {m : Memory} {as : List Act} {s : Sys} (h : m.sys.execs P as = some s) :
    ∃ m', m.execs P as = some m' ∧ m'.sys = s := by
  induction as generalizing m with
  | nil => cases h; exact ⟨m, rfl, rfl⟩
  | cons a as ih =>
    simp only [Sys.execs] at h
    split at h
    · cases h
    · rename_i s1 h1
      have h2 : ∃ m1, m.exec P a = some m1 ∧ m1.sys = s1 := by
        simp only [Memory.exec, h1]
        exact ⟨_, rfl, rfl⟩
      obtain ⟨m1, h2, rfl⟩ := h2
      obtain ⟨m', h3, h4⟩ := ih h
      exact ⟨m', by simp only [Memory.execs, h2]; exact h3, h4⟩

theorem memory_sys {P : Params} {m m' : Memory} {as : List Act} (h : m.execs P as = some m') :
    m.sys.execs P as = some m'.sys := by
  induction as generalizing m with
  | nil => cases h; rfl
  | cons a as ih =>
    simp only [Memory.execs] at h
    split at h
    · cases h
    · rename_i m1 h1
      simp only [Sys.execs, (memory_does h1).sys]
      exact ih h

theorem events_prefix {P : Params} {m m' : Memory} {as : List Act} (h : m.execs P as = some m') : m.events <+: m'.events := by
  induction as generalizing m with
  | nil => cases h; exact List.prefix_refl _
  | cons a as ih =>
    simp only [Memory.execs] at h
    split at h
    · cases h
    · rename_i m1 h1
      exact List.IsPrefix.trans (by rw [(memory_does h1).events]; exact List.prefix_append _ _) (ih h)

theorem free_append {P : Params} {m m' : Memory} {as bs : List Act} (h : m.execs P as = some m') (hf : RaceFree P m (as ++ bs)) :
    RaceFree P m' bs := by
  induction as generalizing m with
  | nil => cases h; exact hf
  | cons a as ih =>
    simp only [Memory.execs] at h
    split at h
    · cases h
    · rename_i m1 h1
      exact ih h (hf m1 h1).2

theorem orderly_append {P : Params} {s s' : Sys} {as bs : List Act} (h : s.execs P as = some s') (ha : Orderly P s as)
    (hb : Orderly P s' bs) : Orderly P s (as ++ bs) := by
  induction as generalizing s with
  | nil => cases h; exact hb
  | cons a as ih =>
    simp only [Sys.execs] at h
    split at h
    · cases h
    · rename_i s1 h1
      refine ⟨ha.1, fun s2 h2 => ?_⟩
      rw [h1] at h2
      cases h2
      exact ih h (ha.2 _ h1)

theorem orderly_plain {P : Params} {s : Sys} {as : List Act} (h : ∀ a ∈ as, ∀ s, Act.assigns P s a = []) : Orderly P s as := by
  induction as generalizing s with
  | nil => trivial
  | cons a as ih =>
    exact ⟨fun hn => absurd (h a List.mem_cons_self s) hn, fun s' _ => ih fun b hb => h b (List.mem_cons_of_mem _ hb)⟩

/-- What the goroutine of the life cycle calls has not seen, and would not see if it took shutdownLock. -/
def Blind (m : Memory) (k : Nat) : Prop := m.seen none k = false ∧ m.held .shutdownLock k = false

theorem seen_none {P : Params} {m m' : Memory} {a : Act} (h : m.exec P a = some m') (k : Nat) :
    m'.seen none k = if a.who = none then (m.before a k || k == m.events.length) else m.seen none k := by
  unfold Memory.exec at h
  split at h
  · cases h
  · have h := Option.some.inj h
    subst h
    dsimp only
    by_cases hw : a.who = none
    · simp [hw]
    · rw [if_neg fun e => hw e.symm, if_neg hw]

theorem held_same {P : Params} {m m' : Memory} {a : Act} (h : m.exec P a = some m') {o : Obj} (ho : o ∉ m.releases a) :
    m'.held o = m.held o := by
  unfold Memory.exec at h
  split at h
  · cases h
  · have h := Option.some.inj h
    subst h
    dsimp only
    rw [if_neg ho]

theorem blind_init (P : Params) (k : Nat) : Blind (Memory.init P) k := ⟨rfl, rfl⟩

/-- Start, ListenPacket and steps of goroutines that do not take shutdownLock. -/
theorem blind_exec {P : Params} {m m' : Memory} {a : Act} {k : Nat} (h : m.exec P a = some m') (hb : Blind m k)
    (hk : a.who = none → k ≠ m.events.length) (ha : Obj.shutdownLock ∉ m.releases a)
    (hq : a.who = none → ∀ o ∈ m.acquires a, o = .shutdownLock) : Blind m' k := by
  refine ⟨?_, by rw [held_same h ha]; exact hb.2⟩
  rw [seen_none h]
  split
  · rename_i hw
    have hbef : m.before a k = false := by
      simp only [Memory.before, hw, hb.1, Bool.false_or]
      rw [List.any_eq_false]
      intro o ho
      rw [hq hw o ho, hb.2]
      simp
    simp [hbef, hk hw]
  · exact hb.1

/-- Stop takes shutdownLock and sees no more. -/
theorem blind_stop {P : Params} {m m' : Memory} {k : Nat} (h : m.exec P .stop = some m') (hb : Blind m k)
    (hk : k < m.events.length) : m'.seen none k = false := by
  rw [seen_none h, if_pos (show Act.stop.who = none from rfl)]
  have hbef : m.before .stop k = false := by
    simp [Memory.before, Act.who, hb.1, Memory.acquires, Memory.comm?, hb.2]
  rw [hbef]
  simp
  omega

/-- The other actions show it nothing. -/
def showsNothing : Act → Bool
  | .stop | .register _ _ | .deregister _ => false
  | _ => true

theorem blind_on {P : Params} {m m' : Memory} {as : List Act} {k : Nat} (h : m.execs P as = some m')
    (ha : ∀ a ∈ as, showsNothing a = true) (hb : m.seen none k = false) (hk : k < m.events.length) :
    m'.seen none k = false := by
  induction as generalizing m with
  | nil => cases h; exact hb
  | cons a as ih =>
    simp only [Memory.execs] at h
    split at h
    · cases h
    · rename_i m1 h1
      have hev := (memory_does h1).events
      refine ih h (fun b hb => ha b (List.mem_cons_of_mem _ hb)) ?_ (by rw [hev]; simp; omega)
      rw [seen_none h1]
      split
      · rename_i hw
        have h2 := ha a List.mem_cons_self
        have hbef : m.before a k = false := by
          cases a <;> first | (cases h2; done) | (cases hw; done) | simp [Memory.before, Act.who, hb, Memory.acquires, Memory.comm?]
        simp [hbef]
        omega
      · exact hb

end Verif.Conc
