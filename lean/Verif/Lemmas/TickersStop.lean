import Verif.Lemmas.TickersLift
/-
Which tickers are stopped.
-/
namespace Verif.Conc
open Packet Code Artnet Spec

/-- The field of the Controller for a variable. -/
def Timed.field (t : Timed) : Clockwork → Option Nat
  | .poll => t.poll
  | .gc => t.gc
  | .update => none

/-- Which tickers are stopped. -/
def Timed.status (t : Timed) (q : Clockwork) : List Bool := (t.tickers q).map (·.stopped)

theorem put_status {t : Timed} {r q : Clockwork} {l : List Ticker} (h : l.map (·.stopped) = t.status r) :
    (t.put r l).status q = t.status q := by
  simp only [Timed.status, Timed.put]
  split
  · subst q; exact h
  · rfl

theorem set_status {l : List Ticker} {k : Nat} {x y : Ticker} (h : l[k]? = some x) (hs : y.stopped = x.stopped) :
    (l.set k y).map (·.stopped) = l.map (·.stopped) := by
  obtain ⟨hk, rfl⟩ := List.getElem?_eq_some_iff.mp h
  rw [List.map_set, hs]
  apply List.ext_getElem? 
  intro j
  rw [List.getElem?_set]
  split
  · subst j; simp [hk]
  · rfl

theorem take_status {t t' : Timed} {r q : Clockwork} {k : Option Nat} (h : t.take r k = some t') :
    t'.status q = t.status q ∧ t'.field q = t.field q := by
  obtain ⟨j, x, rfl, hx, ht, rfl⟩ := take_eq h
  exact ⟨put_status (set_status hx rfl), by cases q <;> rfl⟩

theorem halt_status (t : Timed) (b : Bool) (r q : Clockwork) (k : Option Nat) :
    (t.halt b r k).status q = (if q = r then match k with
      | none => t.status q
      | some k => (t.status q).modify k (fun _ => true) else t.status q) ∧ (t.halt b r k).field q = t.field q := by
  unfold Timed.halt
  split
  · exact ⟨by split <;> rfl, rfl⟩
  · refine ⟨?_, by cases q <;> rfl⟩
    simp only [Timed.status, Timed.put]
    split
    · subst q
      apply List.ext_getElem?
      intro j
      rw [List.getElem?_map, List.getElem?_modify, List.getElem?_modify, List.getElem?_map]
      cases (t.tickers r)[j]? with
      | none => rfl
      | some x =>
        simp only [Option.map_some, Option.map_eq_map]
        split <;> rfl
    · rfl

/-- What an action does. -/
theorem exec_status {b : Bool} {P : Params} (hP : P.controller = true) {t t' : Timed} {a : TimedAct} (h : t.exec b P a = some t')
    {q : Clockwork} (hq : q ≠ .update) :
    (a = .act (.listen true) ∧ t'.status q = t.status q ++ [false] ∧ t'.field q = some (t.status q).length) ∨
    (a = .act .stop ∧ t'.field q = t.field q ∧ t'.status q = match t.field q with
      | none => t.status q
      | some k => (t.status q).modify k (fun _ => true)) ∨
    (a ≠ .act (.listen true) ∧ a ≠ .act .stop ∧ t'.field q = t.field q ∧ t'.status q = t.status q) := by
  unfold Timed.exec at h
  split at h
  · split at h
    · cases h
    · rename_i x hx
      split at h <;> cases h
      exact .inr (.inr ⟨nofun, nofun, by cases q <;> rfl, put_status (set_status hx rfl)⟩)
  · cases h
    exact .inr (.inr ⟨nofun, nofun, by cases q <;> rfl, rfl⟩)
  · split at h
    · cases h
    · obtain ⟨u, hu, rfl⟩ := Option.map_eq_some_iff.mp h
      have e1 : ∀ s, ({ u with sys := s } : Timed).status q = u.status q := fun _ => rfl
      have e2 : ∀ s, ({ u with sys := s } : Timed).field q = u.field q := fun _ => by cases q <;> rfl
      rw [e1, e2]
      unfold Timed.follow at hu
      split at hu
      · rename_i ok _
        cases ok with
        | true =>
          rw [hP] at hu
          cases hu
          refine .inl ⟨rfl, ?_⟩
          cases q with
          | update => exact absurd rfl hq
          | poll | gc => simp [Timed.status, Timed.field, Timed.make, Timed.put, Ticker.new]
        | false => cases hu; exact .inr (.inr ⟨nofun, nofun, rfl, rfl⟩)
      · rw [hP] at hu
        cases hu
        refine .inr (.inl ⟨rfl, ?_⟩)
        rw [(halt_status _ b .gc q _).2, (halt_status _ b .poll q _).2, (halt_status _ b .gc q _).1, (halt_status _ b .poll q _).1]
        refine ⟨rfl, ?_⟩
        cases q with
        | update => exact absurd rfl hq
        | poll => simp [Timed.field]
        | gc => simp [Timed.field]
      · refine .inr (.inr ⟨nofun, nofun, ?_⟩)
        split at hu
        · split at hu <;> cases hu
          exact ⟨by cases q <;> rfl, rfl⟩
        · exact (take_status hu).symm
        · exact (take_status hu).symm
        · split at hu <;> cases hu
          · exact ⟨rfl, rfl⟩
          · refine ⟨by cases q <;> rfl, ?_⟩
            cases q with
            | update => exact absurd rfl hq
            | poll | gc => rfl
        · exact (take_status hu).symm
        · cases hu; exact ⟨rfl, rfl⟩
      · rename_i h1 h2 h3
        cases hu
        refine .inr (.inr ⟨?_, ?_, rfl, rfl⟩)
        · intro h; cases h; exact h1 _ rfl
        · intro h; cases h; exact h2 rfl

/-- The tickers that are in no field are stopped. -/
def Old (t : Timed) (q : Clockwork) : Prop := ∀ (k : Nat) c, (t.status q)[k]? = some c → t.field q ≠ some k → c = true

/-- The ticker in the field is stopped. -/
def Cur (t : Timed) (q : Clockwork) : Prop := ∀ (k : Nat) c, (t.status q)[k]? = some c → t.field q = some k → c = true

theorem old_cur {t : Timed} {q : Clockwork} : (∀ x ∈ t.tickers q, x.stopped = true) ↔ Old t q ∧ Cur t q := by
  constructor
  · intro h
    have key : ∀ (k : Nat) c, (t.status q)[k]? = some c → c = true := by
      intro k c hc
      obtain ⟨x, hx, rfl⟩ := List.mem_map.mp (List.mem_of_getElem? hc)
      exact h x hx
    exact ⟨fun k c hc _ => key k c hc, fun k c hc _ => key k c hc⟩
  · rintro ⟨h1, h2⟩ x hx
    obtain ⟨k, hk, rfl⟩ := List.getElem_of_mem hx
    have hc : (t.status q)[k]? = some (t.tickers q)[k].stopped := by simp [Timed.status, hk]
    by_cases hf : t.field q = some k
    · exact h2 k _ hc hf
    · exact h1 k _ hc hf

theorem execs_status {b : Bool} {P : Params} (hP : P.controller = true) {q : Clockwork} (hq : q ≠ .update) {as : List TimedAct} :
    ∀ {t t' : Timed}, t.execs b P as = some t' →
    ((∀ x ∈ t'.tickers q, x.stopped = true) ↔
      stopsEvery (programActs as) = true ∧ Old t q ∧ (Cur t q ∨ stopsFirst (programActs as) = true)) := by
  induction as with
  | nil =>
    intro t t' h
    cases h
    rw [old_cur]
    simp [programActs, stopsEvery, stopsFirst]
  | cons a as ih =>
    intro t t' h
    simp only [Timed.execs] at h
    cases hx : t.exec b P a with
    | none => rw [hx] at h; cases h
    | some t1 =>
      rw [hx] at h
      have ih := ih h
      rcases exec_status hP hx hq with ⟨rfl, h1, h2⟩ | ⟨rfl, h1, h2⟩ | ⟨h0, h0', h1, h2⟩
      · have e1 : Old t1 q ↔ Old t q ∧ Cur t q := by
          rw [← old_cur]
          constructor
          · intro ho x hx
            obtain ⟨k, hk, rfl⟩ := List.getElem_of_mem hx
            have hk' : k < (t.status q).length := by simpa [Timed.status] using hk
            refine ho k _ ?_ ?_
            · rw [h1, List.getElem?_append_left hk']; simp [Timed.status, hk]
            · rw [h2]; intro h; cases h; exact Nat.lt_irrefl _ hk'
          · intro ha k c hc hf
            rw [h1] at hc
            rw [h2] at hf
            by_cases hk : k < (t.status q).length
            · rw [List.getElem?_append_left hk] at hc
              obtain ⟨x, hx, rfl⟩ := List.mem_map.mp (List.mem_of_getElem? hc)
              exact ha x hx
            · have := (List.getElem?_eq_some_iff.mp hc).1
              rw [List.length_append, List.length_singleton] at this
              exact absurd (congrArg some (show (t.status q).length = k by omega)) hf
        have e2 : ¬ Cur t1 q := by
          intro hc
          have := hc (t.status q).length false (by rw [h1]; simp) h2
          cases this
        rw [ih, e1]
        simp only [programActs, List.filterMap_cons, stopsEvery, stopsFirst, Bool.and_eq_true]
        constructor
        · rintro ⟨h3, ⟨h4, h5⟩, h6 | h6⟩
          · exact absurd h6 e2
          · exact ⟨⟨h6, h3⟩, h4, .inl h5⟩
        · rintro ⟨⟨h6, h3⟩, h4, h5 | h5⟩
          · exact ⟨h3, ⟨h4, h5⟩, .inr h6⟩
          · cases h5
      · have e1 : Old t1 q ↔ Old t q := by
          unfold Old
          rw [h1, h2]
          cases hf : t.field q with
          | none => rfl
          | some j =>
            have : ∀ k c, some j ≠ some k → (((t.status q).modify j fun _ => true)[k]? = some c ↔ (t.status q)[k]? = some c) := by
              intro k c hjk
              have hne : j ≠ k := fun h => hjk (congrArg some h)
              simp [hne]
            constructor
            · intro h k c hc hk; exact h k c ((this k c hk).mpr hc) hk
            · intro h k c hc hk; exact h k c ((this k c hk).mp hc) hk
        have e2 : Cur t1 q := by
          intro k c hc hk
          rw [h1] at hk
          rw [h2, hk] at hc
          simp only [List.getElem?_modify, if_true] at hc
          obtain ⟨_, _, rfl⟩ := Option.map_eq_some_iff.mp hc
          rfl
        rw [ih, e1]
        simp only [programActs, List.filterMap_cons, stopsEvery, stopsFirst]
        simp [e2]
      · have e1 : Old t1 q ↔ Old t q := by unfold Old; rw [h1, h2]
        have e2 : Cur t1 q ↔ Cur t q := by unfold Cur; rw [h1, h2]
        rw [ih, e1, e2]
        cases a with
        | fire | pass => rfl
        | act a =>
          have h3 : a ≠ .listen true := fun h => h0 (congrArg _ h)
          have h4 : a ≠ .stop := fun h => h0' (congrArg _ h)
          have h5 : stopsEvery (programActs (.act a :: as)) = stopsEvery (programActs as) ∧
              stopsFirst (programActs (.act a :: as)) = stopsFirst (programActs as) := by
            simp only [programActs, List.filterMap_cons]
            cases a with
            | listen ok => cases ok <;> first | exact absurd rfl h3 | exact ⟨rfl, rfl⟩
            | stop => exact absurd rfl h4
            | _ => exact ⟨rfl, rfl⟩
          rw [h5.1, h5.2]

end Verif.Conc
