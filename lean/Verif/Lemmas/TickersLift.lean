import Verif.Lemmas.TickersCount
/-
Every execution in which pollLoop receives no tick after Stop is possible with tickers.
-/
namespace Verif.Conc
open Packet Code Artnet Spec

/-- The tickers of a variable that are not stopped. -/
def Ticking (t : Timed) (q : Clockwork) : Prop := ∀ x ∈ t.tickers q, x.stopped = false

/-- Every goroutine has the tickers that it waits on. -/
structure Geared (t : Timed) : Prop where
  poll : ∀ p, t.poll = some p → p < (t.tickers .poll).length
  gc : ∀ g, t.gc = some g → g < (t.tickers .gc).length
  pollers : ∀ (i : Nat) th, t.sys.threads[i]? = some th → wPoller th = 1 → t.poll.isSome ∧ t.gc.isSome
  held : ∀ (i : Nat) th, t.sys.threads[i]? = some th → isWait th = true →
    ∃ p g, t.held i = some (p, g) ∧ p < (t.tickers .poll).length ∧ g < (t.tickers .gc).length
  own : ∀ (i : Nat) th, t.sys.threads[i]? = some th → th.updating = true →
    ∃ k, t.own i = some k ∧ k < (t.tickers .update).length
  update : Ticking t .update

theorem geared_init (P : Params) : Geared (Timed.init P) :=
  ⟨nofun, nofun, fun _ _ h => (by cases h), fun _ _ h => (by cases h), fun _ _ h => (by cases h), fun _ h => (by cases h)⟩

theorem take_parts {t t' : Timed} {q : Clockwork} {k : Option Nat} (h : t.take q k = some t') :
    t'.poll = t.poll ∧ t'.gc = t.gc ∧ t'.held = t.held ∧ t'.own = t.own ∧ t'.sys = t.sys ∧
      ∀ r, Ticking t r → Ticking t' r := by
  obtain ⟨j, x, rfl, hx, ht, rfl⟩ := take_eq h
  refine ⟨rfl, rfl, rfl, rfl, rfl, ?_⟩
  intro r hr y hy
  simp only [Timed.put] at hy
  split at hy
  · subst r
    rcases List.mem_or_eq_of_mem_set hy with hy | rfl
    · exact hr y hy
    · have := hr x (List.mem_of_getElem? hx)
      exact this
  · exact hr y hy

theorem make_ticking {t : Timed} {q r : Clockwork} {d : Int} (h : Ticking t r) : Ticking (t.make q d) r := by
  intro x hx
  simp only [Timed.make, Timed.put] at hx
  split at hx
  · subst r
    rcases List.mem_append.mp hx with hx | hx
    · exact h x hx
    · cases List.mem_singleton.mp hx; rfl
  · exact h x hx

theorem halt_ticking (P : Params) {t : Timed} {b : Bool} {q r : Clockwork} {k : Option Nat} (hq : r ≠ q) (h : Ticking t r) :
    Ticking (t.halt b q k) r := by
  intro x hx
  rw [(halt_wind P t 0 b q r k).2 hq] at hx
  exact h x hx

/-- What a step does with the tickers. -/
theorem follow_run {b : Bool} {P : Params} {t u : Timed} {i : Nat} {c : Choice} {th : Thread}
    (h : t.follow b P (.run i c) = some u) (ht : t.sys.threads[i]? = some th) :
    u.poll = t.poll ∧ u.gc = t.gc ∧ u.sys = t.sys ∧ (∀ q, (t.tickers q).length ≤ (u.tickers q).length) ∧
    (∀ q, Ticking t q → Ticking u q) ∧ (∀ j, j ≠ i → u.held j = t.held j ∧ u.own j = t.own j) ∧
    (th ≠ .plTop → u.held i = t.held i) ∧
    (th = .plTop → ∃ p g, t.poll = some p ∧ t.gc = some g ∧ u.held i = some (p, g)) ∧
    (th ≠ .duInit → u.own i = t.own i) ∧
    (th = .duInit → (∃ d, tickerPeriod P.maxFPS = .ok d) → ∃ k, u.own i = some k ∧ k < (u.tickers .update).length) := by
  have take : ∀ {q : Clockwork} {k : Option Nat}, th ≠ .plTop → th ≠ .duInit → t.take q k = some u →
      u.poll = t.poll ∧ u.gc = t.gc ∧ u.sys = t.sys ∧ (∀ q, (t.tickers q).length ≤ (u.tickers q).length) ∧
      (∀ q, Ticking t q → Ticking u q) ∧ (∀ j, j ≠ i → u.held j = t.held j ∧ u.own j = t.own j) ∧
      (th ≠ .plTop → u.held i = t.held i) ∧
      (th = .plTop → ∃ p g, t.poll = some p ∧ t.gc = some g ∧ u.held i = some (p, g)) ∧
      (th ≠ .duInit → u.own i = t.own i) ∧
      (th = .duInit → (∃ d, tickerPeriod P.maxFPS = .ok d) → ∃ k, u.own i = some k ∧ k < (u.tickers .update).length) := by
    intro q k h1 h2 h
    obtain ⟨a1, a2, a3, a4, a5, a6⟩ := take_parts h
    exact ⟨a1, a2, a5, fun r => Nat.le_of_eq (take_len h r).symm, a6, fun j _ => ⟨by rw [a3], by rw [a4]⟩, fun _ => by rw [a3],
      fun h => absurd h h1, fun _ => by rw [a4], fun h => absurd h h2⟩
  simp only [Timed.follow, ht] at h
  split at h
  · rename_i he
    cases he
    split at h
    · rename_i p g hp hg
      cases h
      exact ⟨rfl, rfl, rfl, fun _ => Nat.le_refl _, fun _ h => h, fun j hj => ⟨if_neg hj, rfl⟩, fun h => absurd rfl h,
        fun _ => ⟨p, g, hp, hg, if_pos rfl⟩, fun _ => rfl, nofun⟩
    · cases h
  · rename_i he
    cases he
    exact take nofun nofun h
  · rename_i he
    cases he
    exact take nofun nofun h
  · rename_i he
    cases he
    split at h
    · rename_i e hd
      cases h
      exact ⟨rfl, rfl, rfl, fun _ => Nat.le_refl _, fun _ h => h, fun j hj => ⟨rfl, rfl⟩, fun _ => rfl,
        nofun, fun _ => rfl, fun _ ⟨d, h⟩ => (by rw [hd] at h; cases h)⟩
    · rename_i d hd
      cases h
      refine ⟨rfl, rfl, rfl, fun q => ?_, fun _ h => make_ticking h, fun j hj => ⟨rfl, if_neg hj⟩, fun _ => rfl,
        nofun, fun h => absurd rfl h, fun _ _ => ⟨_, if_pos rfl, ?_⟩⟩
      · cases q <;> simp [Timed.make, Timed.put]
      · simp [Timed.make, Timed.put]
  · rename_i he
    cases he
    exact take nofun nofun h
  · rename_i h1 h2 _ _ _
    cases h
    exact ⟨rfl, rfl, rfl, fun _ => Nat.le_refl _, fun _ h => h, fun j hj => ⟨rfl, rfl⟩, fun _ => rfl,
      fun h => absurd (congrArg some h) h1, fun _ => rfl, fun h => absurd (congrArg some h) h2⟩

theorem goroutines_updating (P : Params) : ∀ th ∈ P.goroutines, th.updating = false ∧ isWait th = false := by
  intro th h
  simp only [Params.goroutines] at h
  split at h <;> simp at h
  · rcases h with rfl | rfl | rfl | rfl | rfl <;> exact ⟨rfl, rfl⟩
  · rcases h with rfl | rfl | rfl <;> exact ⟨rfl, rfl⟩

theorem goroutines_node {P : Params} (hP : P.controller = false) : ∀ th ∈ P.goroutines, wPoller th = 0 := by
  intro th h
  simp only [Params.goroutines, hP] at h
  simp at h
  rcases h with rfl | rfl | rfl <;> rfl

theorem follow_geared {b : Bool} {P : Params} {t u : Timed} {a : Act} {s : Sys} (hg : Geared t) (hs : t.sys.exec P a = some s)
    (hu : t.follow b P a = some u) : Geared { u with sys := s } := by
  by_cases hr : ∃ i c, a = .run i c
  · obtain ⟨i, c, rfl⟩ := hr
    obtain ⟨th, ht, hst⟩ := run_step hs
    obtain ⟨t', ts, h1, hf, h2⟩ := step_next ht hst
    obtain ⟨f1, f2, f3, f4, f5, f6, f7, f8, f9, f10⟩ := follow_run hu ht
    have hlt := (List.getElem?_eq_some_iff.mp ht).1
    have cases' : ∀ {j : Nat} {x}, s.threads[j]? = some x → (j = i ∧ x = t') ∨ (j ≠ i ∧ t.sys.threads[j]? = some x) ∨ x ∈ ts := by
      intro j x hx
      rw [h1] at hx
      by_cases hj : j < t.sys.threads.length
      · rw [List.getElem?_append_left (by simpa using hj), List.getElem?_set] at hx
        split at hx
        · rename_i e
          subst e
          exact .inl ⟨rfl, (Option.some.inj hx).symm⟩
        · exact .inr (.inl ⟨Ne.symm ‹_›, hx⟩)
      · rw [List.getElem?_append_right (by simpa using Nat.le_of_not_lt hj)] at hx
        exact .inr (.inr (List.mem_of_getElem? hx))
    refine ⟨?_, ?_, ?_, ?_, ?_, f5 _ hg.update⟩
    · intro p hp
      exact Nat.lt_of_lt_of_le (hg.poll p (f1 ▸ hp)) (f4 _)
    · intro p hp
      exact Nat.lt_of_lt_of_le (hg.gc p (f2 ▸ hp)) (f4 _)
    · intro j x hx hw
      show u.poll.isSome = true ∧ u.gc.isSome = true
      rw [f1, f2]
      rcases cases' hx with ⟨rfl, rfl⟩ | ⟨hj, hx⟩ | hm
      · exact hg.pollers _ _ ht (hf.poller hw)
      · exact hg.pollers _ _ hx hw
      · rw [(h2 x hm).1] at hw; cases hw
    · intro j x hx hw
      show ∃ p g, u.held j = some (p, g) ∧ _
      rcases cases' hx with ⟨rfl, rfl⟩ | ⟨hj, hx⟩ | hm
      · by_cases htop : th = .plTop
        · obtain ⟨p, g, hp, hgc, hh⟩ := f8 htop
          exact ⟨p, g, hh, Nat.lt_of_lt_of_le (hg.poll p hp) (f4 _), Nat.lt_of_lt_of_le (hg.gc g hgc) (f4 _)⟩
        · rcases hf.wait hw with h | rfl
          · exact absurd h htop
          · obtain ⟨p, g, hh, h3, h4⟩ := hg.held _ _ ht hw
            exact ⟨p, g, (f7 htop).trans hh, Nat.lt_of_lt_of_le h3 (f4 _), Nat.lt_of_lt_of_le h4 (f4 _)⟩
      · obtain ⟨p, g, hh, h3, h4⟩ := hg.held _ _ hx hw
        exact ⟨p, g, (f6 j hj).1.trans hh, Nat.lt_of_lt_of_le h3 (f4 _), Nat.lt_of_lt_of_le h4 (f4 _)⟩
      · have := (h2 x hm).1
        cases x <;> first | (cases hw; done) | (cases this; done)
    · intro j x hx hw
      show ∃ k, u.own j = some k ∧ _
      rcases cases' hx with ⟨rfl, rfl⟩ | ⟨hj, hx⟩ | hm
      · rcases hf.upd hw with h | ⟨h, hd⟩
        · obtain ⟨k, hk, h3⟩ := hg.own _ _ ht h
          have hne : th ≠ .duInit := by rintro rfl; cases h
          exact ⟨k, (f9 hne).trans hk, Nat.lt_of_lt_of_le h3 (f4 _)⟩
        · exact f10 h hd
      · obtain ⟨k, hk, h3⟩ := hg.own _ _ hx hw
        exact ⟨k, (f6 j hj).2.trans hk, Nat.lt_of_lt_of_le h3 (f4 _)⟩
      · rw [(h2 x hm).2.1] at hw; cases hw
  · rcases exec_still hs fun i c he => hr ⟨i, c, he⟩ with ⟨rfl, h1, h2, _⟩ | ⟨h0, h1, ⟨ts, h2, h3⟩, _⟩
    · have old : ∀ {j : Nat} {x}, s.threads[j]? = some x → t.sys.threads[j]? = some x ∨ x ∈ P.goroutines := by
        intro j x hx
        rw [h2] at hx
        by_cases hj : j < t.sys.threads.length
        · rw [List.getElem?_append_left hj] at hx; exact .inl hx
        · rw [List.getElem?_append_right (Nat.le_of_not_lt hj)] at hx
          exact .inr (List.mem_of_getElem? hx)
      have hlen : ∀ q, (t.tickers q).length ≤ (u.tickers q).length := by
        intro q
        simp only [Timed.follow] at hu
        split at hu <;> cases hu
        · cases q <;> simp [Timed.make, Timed.put]
        · exact Nat.le_refl _
      have hfields : u.held = t.held ∧ u.own = t.own ∧ (∀ q, Ticking t q → Ticking u q) := by
        simp only [Timed.follow] at hu
        split at hu <;> cases hu
        · exact ⟨rfl, rfl, fun _ h => make_ticking (make_ticking h)⟩
        · exact ⟨rfl, rfl, fun _ h => h⟩
      have hpg : (P.controller = true ∧ u.poll = some (t.tickers .poll).length ∧ u.gc = some (t.tickers .gc).length ∧
          (t.tickers .poll).length < (u.tickers .poll).length ∧ (t.tickers .gc).length < (u.tickers .gc).length) ∨
          (P.controller = false ∧ u.poll = t.poll ∧ u.gc = t.gc) := by
        simp only [Timed.follow] at hu
        split at hu
        · rename_i hc
          cases hu
          exact .inl ⟨by simpa using hc, rfl, rfl, by simp [Timed.make, Timed.put], by simp [Timed.make, Timed.put]⟩
        · rename_i hc
          cases hu
          exact .inr ⟨by simpa using hc, rfl, rfl⟩
      refine ⟨?_, ?_, ?_, ?_, ?_, hfields.2.2 _ hg.update⟩
      · intro p hp
        have hp : u.poll = some p := hp
        show p < (u.tickers .poll).length
        rcases hpg with ⟨_, h, _, h', _⟩ | ⟨_, h, _⟩
        · rw [h] at hp; cases hp; exact h'
        · exact Nat.lt_of_lt_of_le (hg.poll p (h ▸ hp)) (hlen _)
      · intro p hp
        have hp : u.gc = some p := hp
        show p < (u.tickers .gc).length
        rcases hpg with ⟨_, _, h, _, h'⟩ | ⟨_, _, h⟩
        · rw [h] at hp; cases hp; exact h'
        · exact Nat.lt_of_lt_of_le (hg.gc p (h ▸ hp)) (hlen _)
      · intro j x hx hw
        show u.poll.isSome = true ∧ u.gc.isSome = true
        rcases hpg with ⟨_, h, h', _⟩ | ⟨hn, h, h'⟩
        · rw [h, h']; exact ⟨rfl, rfl⟩
        · rw [h, h']
          rcases old hx with hx | hx
          · exact hg.pollers _ _ hx hw
          · rw [goroutines_node hn x hx] at hw; cases hw
      · intro j x hx hw
        rcases old hx with hx | hx
        · obtain ⟨p, g, hh, h3, h4⟩ := hg.held _ _ hx hw
          exact ⟨p, g, by rw [← hh]; exact congrFun hfields.1 j, Nat.lt_of_lt_of_le h3 (hlen _), Nat.lt_of_lt_of_le h4 (hlen _)⟩
        · rw [(goroutines_updating P x hx).2] at hw; cases hw
      · intro j x hx hw
        rcases old hx with hx | hx
        · obtain ⟨k, hk, h3⟩ := hg.own _ _ hx hw
          exact ⟨k, by rw [← hk]; exact congrFun hfields.2.1 j, Nat.lt_of_lt_of_le h3 (hlen _)⟩
        · rw [(goroutines_updating P x hx).1] at hw; cases hw
    · have old : ∀ {j : Nat} {x}, s.threads[j]? = some x → t.sys.threads[j]? = some x ∨ ∃ d a, x = .caller d a := by
        intro j x hx
        rw [h2] at hx
        by_cases hj : j < t.sys.threads.length
        · rw [List.getElem?_append_left hj] at hx; exact .inl hx
        · rw [List.getElem?_append_right (Nat.le_of_not_lt hj)] at hx
          exact .inr (h3 x (List.mem_of_getElem? hx))
      have hall : u.poll = t.poll ∧ u.gc = t.gc ∧ u.held = t.held ∧ u.own = t.own ∧
          (∀ q, (u.tickers q).length = (t.tickers q).length) ∧ Ticking u .update := by
        unfold Timed.follow at hu
        split at hu
        · rename_i ok
          have : ok = false := by cases ok <;> simp_all
          subst this
          cases hu
          exact ⟨rfl, rfl, rfl, rfl, fun _ => rfl, hg.update⟩
        · split at hu <;> cases hu
          · refine ⟨?_, ?_, ?_, ?_, fun _ => by rw [halt_len, halt_len], halt_ticking P nofun (halt_ticking P nofun hg.update)⟩ <;>
            (simp only [Timed.halt]; split <;> split <;> rfl)
          · exact ⟨rfl, rfl, rfl, rfl, fun _ => rfl, hg.update⟩
        · exact absurd ⟨_, _, rfl⟩ hr
        · cases hu
          exact ⟨rfl, rfl, rfl, rfl, fun _ => rfl, hg.update⟩
      obtain ⟨e1, e2, e3, e4, e5, e6⟩ := hall
      refine ⟨?_, ?_, ?_, ?_, ?_, e6⟩
      · intro p hp
        show p < (u.tickers .poll).length
        rw [e5]; exact hg.poll p (e1 ▸ hp)
      · intro p hp
        show p < (u.tickers .gc).length
        rw [e5]; exact hg.gc p (e2 ▸ hp)
      · intro j x hx hw
        show u.poll.isSome = true ∧ u.gc.isSome = true
        rw [e1, e2]
        rcases old hx with hx | ⟨_, _, rfl⟩
        · exact hg.pollers _ _ hx hw
        · cases hw
      · intro j x hx hw
        show ∃ p g, u.held j = some (p, g) ∧ p < (u.tickers .poll).length ∧ g < (u.tickers .gc).length
        rw [e3, e5, e5]
        rcases old hx with hx | ⟨_, _, rfl⟩
        · exact hg.held _ _ hx hw
        · cases hw
      · intro j x hx hw
        show ∃ k, u.own j = some k ∧ k < (u.tickers .update).length
        rw [e4, e5]
        rcases old hx with hx | ⟨_, _, rfl⟩
        · exact hg.own _ _ hx hw
        · cases hw

theorem timed_append (b : Bool) (P : Params) (t : Timed) (as bs : List TimedAct) :
    t.execs b P (as ++ bs) = (t.execs b P as).bind fun t => t.execs b P bs := by
  induction as generalizing t with
  | nil => rfl
  | cons a as ih =>
    simp only [List.cons_append, Timed.execs]
    split
    · rfl
    · exact ih _

theorem exec_geared {b : Bool} {P : Params} {t t' : Timed} {a : TimedAct} (hg : Geared t) (h : t.exec b P a = some t') :
    Geared t' := by
  unfold Timed.exec at h
  split at h
  · rename_i q k
    split at h
    · cases h
    · rename_i x hx
      split at h
      · rename_i hc
        cases h
        have hl : ∀ r, ((t.put q ((t.tickers q).set k (x.fire t.clock))).tickers r).length = (t.tickers r).length := by
          intro r
          simp only [Timed.put]
          split
          · subst r; simp
          · rfl
        refine ⟨?_, ?_, hg.pollers, ?_, ?_, ?_⟩
        · intro p hp; rw [hl]; exact hg.poll p hp
        · intro p hp; rw [hl]; exact hg.gc p hp
        · intro i th; rw [hl, hl]; exact hg.held i th
        · intro i th; rw [hl]; exact hg.own i th
        · intro y hy
          simp only [Timed.put] at hy
          split at hy
          · subst q
            rcases List.mem_or_eq_of_mem_set hy with hy | rfl
            · exact hg.update y hy
            · have := hg.update x (List.mem_of_getElem? hx)
              exact this
          · exact hg.update y hy
      · cases h
  · cases h
    exact ⟨hg.poll, hg.gc, hg.pollers, hg.held, hg.own, hg.update⟩
  · split at h
    · cases h
    · rename_i s hs
      obtain ⟨u, hu, rfl⟩ := Option.map_eq_some_iff.mp h
      exact follow_geared hg hs hu

theorem execs_geared {b : Bool} {P : Params} {as : List TimedAct} {t t' : Timed} (hg : Geared t)
    (h : t.execs b P as = some t') : Geared t' := by
  induction as generalizing t with
  | nil => cases h; exact hg
  | cons a as ih =>
    simp only [Timed.execs] at h
    cases hx : t.exec b P a with
    | none => rw [hx] at h; cases h
    | some t1 => rw [hx] at h; exact ih (exec_geared hg hx) h

/-- The runtime can send a tick that the program then receives. -/
theorem take_lift {b : Bool} {P : Params} {t : Timed} {q : Clockwork} {k : Nat} (hk : k < (t.tickers q).length) (hs : Ticking t q)
    (s : Sys) (a : Act) (ha : t.sys.exec P a = some s)
    (hf : ∀ u : Timed, u.sys = t.sys → u.held = t.held → u.own = t.own → u.follow b P a = u.take q (some k)) :
    ∃ pre t', t.execs b P (pre ++ [.act a]) = some t' ∧ programActs pre = [] ∧ t'.sys = s ∧ ∀ r, Ticking t r → Ticking t' r := by
  have hx : (t.tickers q)[k]? = some (t.tickers q)[k] := List.getElem?_eq_getElem hk
  generalize (t.tickers q)[k] = x at hx
  have hst := hs x (List.mem_of_getElem? hx)
  let d := (x.due - t.clock).toNat
  have hd : x.due ≤ t.clock + (d : Int) := by show x.due ≤ t.clock + ((x.due - t.clock).toNat : Int); omega
  generalize d = d at hd
  let t1 : Timed := { t with clock := t.clock + d }
  let t2 : Timed := t1.put q ((t1.tickers q).set k (x.fire t1.clock))
  have h1 : t.exec b P (.pass d) = some t1 := rfl
  have h2 : t1.exec b P (.fire q k) = some t2 := by
    have hx1 : (t1.tickers q)[k]? = some x := hx
    simp only [Timed.exec, hx1, hst]
    rw [if_pos (by simpa [t1] using hd)]
  have hx2 : (t2.tickers q)[k]? = some (x.fire t1.clock) := by
    simp only [t2, Timed.put, if_true]
    have : k < (t1.tickers q).length := hk
    simp [this]
  let t3 : Timed := { t2.put q ((t2.tickers q).set k { x.fire t1.clock with tick := false }) with sys := s }
  have h3 : t2.exec b P (.act a) = some t3 := by
    have : t2.sys.exec P a = some s := ha
    simp only [Timed.exec, this, hf t2 rfl rfl rfl]
    simp only [Timed.take, hx2]
    rw [if_pos (show (x.fire t1.clock).tick = true from rfl)]
    rfl
  refine ⟨[.pass d, .fire q k], t3, ?_, rfl, rfl, ?_⟩
  · simp only [List.cons_append, List.nil_append, Timed.execs, h1, h2, h3]
  · intro r hr y hy
    have hy : y ∈ (t2.put q ((t2.tickers q).set k { x.fire t1.clock with tick := false })).tickers r := hy
    simp only [Timed.put] at hy
    by_cases e : r = q
    · subst e
      rw [if_pos rfl] at hy
      rcases List.mem_or_eq_of_mem_set hy with hy | rfl
      · simp only [t2, Timed.put, if_true] at hy
        rcases List.mem_or_eq_of_mem_set hy with hy | rfl
        · exact hr y hy
        · exact hst
      · exact hst
    · rw [if_neg e] at hy
      simp only [t2, Timed.put, if_neg e] at hy
      exact hr y hy

/-- An action can happen as soon as the runtime sends the tick that it waits for. -/
theorem act_lift {b : Bool} {P : Params} {t : Timed} (hg : Geared t) {a : Act} {s : Sys} (ha : t.sys.exec P a = some s)
    (hq : receives t.sys a = some .poll ∨ receives t.sys a = some .gc → ∀ q, Ticking t q) :
    ∃ pre t', t.execs b P (pre ++ [.act a]) = some t' ∧ programActs pre = [] ∧ t'.sys = s ∧
      (a ≠ .stop → (∀ r, Ticking t r) → ∀ r, Ticking t' r) := by
  have plain : ∀ u, t.follow b P a = some u → (a ≠ .stop → (∀ r, Ticking t r) → ∀ r, Ticking u r) →
      ∃ pre t', t.execs b P (pre ++ [.act a]) = some t' ∧ programActs pre = [] ∧ t'.sys = s ∧
      (a ≠ .stop → (∀ r, Ticking t r) → ∀ r, Ticking t' r) := by
    intro u hu hk
    refine ⟨[], { u with sys := s }, ?_, rfl, rfl, hk⟩
    simp only [List.nil_append, Timed.execs, Timed.exec, ha, hu]
    rfl
  cases a with
  | run i c =>
    obtain ⟨th, ht, hst⟩ := run_step ha
    have lift : ∀ {q k}, k < (t.tickers q).length → Ticking t q →
        (∀ u : Timed, u.sys = t.sys → u.held = t.held → u.own = t.own → u.follow b P (.run i c) = u.take q (some k)) →
        ∃ pre t', t.execs b P (pre ++ [.act (.run i c)]) = some t' ∧ programActs pre = [] ∧ t'.sys = s ∧
        (Act.run i c ≠ .stop → (∀ r, Ticking t r) → ∀ r, Ticking t' r) := by
      intro q k hk hs hf
      obtain ⟨pre, t', h1, h2, h3, h4⟩ := take_lift hk hs s _ ha hf
      exact ⟨pre, t', h1, h2, h3, fun _ h r => h4 r (h r)⟩
    by_cases hw : isWait th = true ∧ (c = .tick ∨ c = .gcTick)
    · obtain ⟨hw, hc⟩ := hw
      obtain ⟨p, g, hh, hp, hgl⟩ := hg.held i th ht hw
      cases th <;> first | (cases hw; done) | skip
      rcases hc with rfl | rfl
      · exact lift hp (hq (.inl (by simp only [receives, ht])) _) fun u h1 h2 _ => by
          simp only [Timed.follow, h1, ht, h2, hh, Option.map_some]
      · exact lift hgl (hq (.inr (by simp only [receives, ht])) _) fun u h1 h2 _ => by
          simp only [Timed.follow, h1, ht, h2, hh, Option.map_some]
    · by_cases hd : (∃ k, th = .duWait k) ∧ c = .tick
      · obtain ⟨⟨k, rfl⟩, rfl⟩ := hd
        obtain ⟨k, hk, hkl⟩ := hg.own i _ ht rfl
        exact lift hkl hg.update fun u h1 _ h3 => by
          simp only [Timed.follow, h1, ht, h3, hk]
      · have hex : ∃ u, t.follow b P (.run i c) = some u := by
          by_cases h1 : th = .plTop
          · subst h1
            obtain ⟨h1, h2⟩ := hg.pollers i _ ht rfl
            obtain ⟨p, hp⟩ := Option.isSome_iff_exists.mp h1
            obtain ⟨g, hgc⟩ := Option.isSome_iff_exists.mp h2
            exact ⟨_, by simp only [Timed.follow, ht, hp, hgc]; rfl⟩
          · by_cases h2 : th = .duInit
            · subst h2
              simp only [Timed.follow, ht]
              split <;> exact ⟨_, rfl⟩
            · refine ⟨t, ?_⟩
              simp only [Timed.follow, ht]
              split
              · exact absurd (Option.some.inj ‹_›) h1
              · rename_i he; cases he; exact absurd ⟨rfl, .inl rfl⟩ hw
              · rename_i he; cases he; exact absurd ⟨rfl, .inr rfl⟩ hw
              · exact absurd (Option.some.inj ‹_›) h2
              · exact absurd ⟨⟨_, Option.some.inj ‹_›⟩, rfl⟩ hd
              · rfl
        obtain ⟨u, hu⟩ := hex
        exact plain u hu fun _ h r => (follow_run hu ht).2.2.2.2.1 r (h r)
  | listen ok =>
    by_cases hc : (ok && P.controller) = true
    · have hu : ∃ u, t.follow b P (.listen ok) = some u ∧ ∀ r, Ticking t r → Ticking u r := by
        simp only [Timed.follow, if_pos hc]
        exact ⟨_, rfl, fun r h => make_ticking (make_ticking h)⟩
      obtain ⟨u, hu, hk⟩ := hu
      exact plain u hu fun _ h r => hk r (h r)
    · exact plain _ (by simp only [Timed.follow, if_neg hc]) fun _ h r => h r
  | stop =>
    by_cases hc : P.controller = true
    · exact plain _ (by simp only [Timed.follow, if_pos hc]; rfl) fun h => absurd rfl h
    · exact plain _ (by simp only [Timed.follow, if_neg hc]; rfl) fun h => absurd rfl h
  | _ => exact plain t rfl fun _ h => h

theorem programActs_append (as bs : List TimedAct) : programActs (as ++ bs) = programActs as ++ programActs bs :=
  List.filterMap_append ..

theorem lifts {b : Bool} {P : Params} (as : List Act) : ∀ {pre : List Act} {t : Timed} {s : Sys}, QuietAfterStop P (pre ++ as) →
    (Sys.init P).execs P pre = some t.sys → Geared t → (Act.stop ∉ pre → ∀ q, Ticking t q) → t.sys.execs P as = some s →
    ∃ bs t', t.execs b P bs = some t' ∧ programActs bs = as ∧ t'.sys = s := by
  induction as with
  | nil => intro pre t s _ _ _ _ h; exact ⟨[], t, rfl, rfl, Option.some.inj h⟩
  | cons a as ih =>
    intro pre t s hq hpre hg hrun h
    simp only [Sys.execs] at h
    cases hx : t.sys.exec P a with
    | none => rw [hx] at h; cases h
    | some s1 =>
      rw [hx] at h
      have hquiet : receives t.sys a = some .poll ∨ receives t.sys a = some .gc → ∀ q, Ticking t q := by
        intro hrec
        by_cases hs : Act.stop ∈ pre
        · have := hq pre a as t.sys rfl hs hpre
          rcases hrec with h | h
          · exact absurd h this.1
          · exact absurd h this.2
        · exact hrun hs
      obtain ⟨b1, t1, h1, h2, h3, h4⟩ := act_lift (b := b) hg hx hquiet
      have hpre1 : (Sys.init P).execs P (pre ++ [a]) = some t1.sys := by
        rw [execs_append, hpre, h3]
        simp only [Option.bind_some, Sys.execs, hx]
      obtain ⟨b2, t2, h5, h6, h7⟩ := ih (pre := pre ++ [a]) (by rwa [List.append_assoc, List.singleton_append]) hpre1
        (execs_geared hg h1) (by
          intro hn
          have h8 : Act.stop ∉ pre := fun h => hn (List.mem_append_left _ h)
          have h9 : a ≠ .stop := by rintro rfl; exact hn (by simp)
          exact h4 h9 (hrun h8)) (h3 ▸ h)
      refine ⟨b1 ++ [.act a] ++ b2, t2, ?_, ?_, h7⟩
      · rw [timed_append, h1]; exact h5
      · rw [programActs_append, programActs_append, h2, h6]; rfl

end Verif.Conc
