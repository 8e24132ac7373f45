/-
A fair scheduler: a queue of everything that may have to be done, of which the first that is possible is done and goes to
the end of the queue.
-/
namespace Verif.Sched

/-- What may have to be done in a state, what doing it leads to if it is possible, and what happens when nothing is. -/
structure Sched (S O : Type) where
  fresh : S → List O
  serve : S → O → Option S
  idle : S → S

variable {S O : Type} [DecidableEq O] (σ : Sched S O)

namespace Sched

/-- The queue from which the next is chosen. -/
def queue (x : S × List O) : List O := x.2 ++ σ.fresh x.1

/-- The next to be done. -/
def next (x : S × List O) : Option O := (σ.queue x).find? fun o => (σ.serve x.1 o).isSome

def step (x : S × List O) : S × List O :=
  match σ.next x with
  | none => (σ.idle x.1, σ.queue x)
  | some o => ((σ.serve x.1 o).getD x.1, (σ.queue x).erase o ++ [o])

def run (s : S) : Nat → S × List O
  | 0 => (s, [])
  | n + 1 => σ.step (run s n)

/-- The states. -/
def state (s : S) (n : Nat) : S := (σ.run s n).1

/-- What is done at time `n`. -/
def chosen (s : S) (n : Nat) : Option O := σ.next (σ.run s n)

theorem does {s : S} {n : Nat} {o : O} (h : σ.chosen s n = some o) : σ.serve (σ.state s n) o = some (σ.state s (n + 1)) := by
  have h1 : (σ.serve (σ.state s n) o).isSome = true := (List.find?_some h :)
  obtain ⟨s', hs'⟩ := Option.isSome_iff_exists.mp h1
  rw [hs']
  have h2 : σ.next (σ.run s n) = some o := h
  have h3 : σ.serve (σ.run s n).1 o = some s' := hs'
  show _ = some (σ.step (σ.run s n)).1
  simp only [step, h2, h3, Option.getD_some]

theorem idles {s : S} {n : Nat} (h : σ.chosen s n = none) : σ.state s (n + 1) = σ.idle (σ.state s n) := by
  have h2 : σ.next (σ.run s n) = none := h
  show (σ.step (σ.run s n)).1 = _
  simp only [step, h2]
  rfl

theorem idx_erase {l : List O} {o o' : O} (hne : o ≠ o') (hm : o ∈ l) :
    (l.erase o').idxOf o ≤ l.idxOf o ∧ (l.idxOf o' < l.idxOf o → (l.erase o').idxOf o < l.idxOf o) := by
  induction l with
  | nil => cases hm
  | cons a l ih =>
    by_cases ha : a = o'
    · subst ha
      have hao : (a == o) = false := beq_eq_false_iff_ne.mpr (Ne.symm hne)
      simp only [List.erase_cons_head, List.idxOf_cons, hao, cond_false]
      omega
    · have hao' : (a == o') = false := beq_eq_false_iff_ne.mpr ha
      rw [List.erase_cons_tail (by rw [hao']; nofun)]
      by_cases hb : a = o
      · subst hb
        simp [List.idxOf_cons]
      · have hao : (a == o) = false := beq_eq_false_iff_ne.mpr hb
        have hm' : o ∈ l := by
          rcases List.mem_cons.mp hm with h | h
          · exact absurd h.symm hb
          · exact h
        obtain ⟨h1, h2⟩ := ih hm'
        simp only [List.idxOf_cons, hao, hao', cond_false]
        exact ⟨by omega, fun h => by have := h2 (by omega); omega⟩

theorem first_idx {l : List O} {p : O → Bool} {o o' : O} (hf : l.find? p = some o') (hm : o ∈ l) (hp : p o = true)
    (hne : o ≠ o') : l.idxOf o' < l.idxOf o := by
  induction l with
  | nil => cases hm
  | cons a l ih =>
    by_cases hpa : p a = true
    · rw [List.find?_cons_of_pos hpa] at hf
      have hf := Option.some.inj hf
      subst hf
      have hao : (a == o) = false := beq_eq_false_iff_ne.mpr (Ne.symm hne)
      simp only [List.idxOf_cons, beq_self_eq_true, cond_true, hao, cond_false]
      omega
    · rw [List.find?_cons_of_neg hpa] at hf
      have hb : a ≠ o := fun h => hpa (h ▸ hp)
      have hao : (a == o) = false := beq_eq_false_iff_ne.mpr hb
      have hm' : o ∈ l := by
        rcases List.mem_cons.mp hm with h | h
        · exact absurd h.symm hb
        · exact h
      have := ih hf hm'
      have hb' : a ≠ o' := fun h => hpa (h ▸ List.find?_some hf)
      have hao' : (a == o') = false := beq_eq_false_iff_ne.mpr hb'
      simp only [List.idxOf_cons, hao, hao', cond_false]
      omega

theorem idx_append {l l' : List O} {o : O} (h : o ∈ l) : (l ++ l').idxOf o = l.idxOf o := by
  rw [List.idxOf_append, if_pos h]

/-- What is possible again and again is done again and again. -/
theorem served (hfresh : ∀ s o, (σ.serve s o).isSome = true → o ∈ σ.fresh s) {s : S} {o : O}
    (hinf : ∀ n, ∃ m, n ≤ m ∧ (σ.serve (σ.state s m) o).isSome = true) (n : Nat) :
    ∃ m, n ≤ m ∧ σ.chosen s m = some o := by
  refine Classical.byContradiction fun hno => ?_
  have hno : ∀ m, n ≤ m → σ.chosen s m ≠ some o := fun m hm h => hno ⟨m, hm, h⟩
  -- the place in the queue
  have hstep : ∀ m, n ≤ m → o ∈ σ.queue (σ.run s m) → o ∈ σ.queue (σ.run s (m + 1)) ∧
      (σ.queue (σ.run s (m + 1))).idxOf o ≤ (σ.queue (σ.run s m)).idxOf o ∧
      ((σ.serve (σ.state s m) o).isSome = true →
        (σ.queue (σ.run s (m + 1))).idxOf o < (σ.queue (σ.run s m)).idxOf o) := by
    intro m hm hin
    cases hc : σ.next (σ.run s m) with
    | none =>
      have e1 : σ.queue (σ.run s (m + 1)) = σ.queue (σ.run s m) ++ σ.fresh (σ.run s (m + 1)).1 := by
        rw [queue, show (σ.run s (m + 1)).2 = σ.queue (σ.run s m) by show (σ.step (σ.run s m)).2 = _; simp only [step, hc]]
      rw [e1, idx_append hin]
      refine ⟨List.mem_append_left _ hin, Nat.le_refl _, fun hs => ?_⟩
      have := List.find?_eq_none.mp hc o hin
      exact absurd hs this
    | some o' =>
      have hne : o ≠ o' := fun h => hno m hm (by rw [h]; exact hc)
      have e1 : σ.queue (σ.run s (m + 1)) = (σ.queue (σ.run s m)).erase o' ++ ([o'] ++ σ.fresh (σ.run s (m + 1)).1) := by
        rw [queue, show (σ.run s (m + 1)).2 = (σ.queue (σ.run s m)).erase o' ++ [o'] by show (σ.step (σ.run s m)).2 = _; simp only [step, hc],
          List.append_assoc]
      have hin' : o ∈ (σ.queue (σ.run s m)).erase o' := (List.mem_erase_of_ne hne).mpr hin
      rw [e1, idx_append hin']
      obtain ⟨h1, h2⟩ := idx_erase hne hin
      exact ⟨List.mem_append_left _ hin', h1, fun hs => h2 (first_idx hc hin hs hne)⟩
  have later : ∀ m, n ≤ m → o ∈ σ.queue (σ.run s m) → ∀ d, o ∈ σ.queue (σ.run s (m + d)) ∧
      (σ.queue (σ.run s (m + d))).idxOf o ≤ (σ.queue (σ.run s m)).idxOf o := by
    intro m hm hin d
    induction d with
    | zero => exact ⟨hin, Nat.le_refl _⟩
    | succ d ih =>
      obtain ⟨h1, h2, _⟩ := hstep (m + d) (by omega) ih.1
      exact ⟨h1, Nat.le_trans h2 ih.2⟩
  have key : ∀ r m, n ≤ m → o ∈ σ.queue (σ.run s m) → (σ.queue (σ.run s m)).idxOf o ≤ r → False := by
    intro r
    induction r with
    | zero =>
      intro m hm hin hr
      obtain ⟨m', hm', hs⟩ := hinf m
      obtain ⟨d, rfl⟩ := Nat.le.dest hm'
      obtain ⟨h1, h2⟩ := later m hm hin d
      have := (hstep (m + d) (by omega) h1).2.2 hs
      omega
    | succ r ih =>
      intro m hm hin hr
      obtain ⟨m', hm', hs⟩ := hinf m
      obtain ⟨d, rfl⟩ := Nat.le.dest hm'
      obtain ⟨h1, h2⟩ := later m hm hin d
      obtain ⟨h3, _, h4⟩ := hstep (m + d) (by omega) h1
      have := h4 hs
      exact ih (m + d + 1) (by omega) h3 (by omega)
  obtain ⟨m, hm, hs⟩ := hinf n
  exact key _ m hm (List.mem_append_right _ (hfresh _ _ hs)) (Nat.le_refl _)

end Sched
end Verif.Sched
