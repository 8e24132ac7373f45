import Verif.Lemmas.TickersCount
/-
What is received from a ticker was sent by it.
-/
namespace Verif.Conc
open Packet Code Artnet Spec

def waits (x : Ticker) : Nat := if x.tick then 1 else 0

/-- What becomes of one ticker. -/
structure Kept (x y : Ticker) (got sent : Nat) : Prop where
  count : got + waits y ≤ waits x + sent
  stopped : x.stopped = true → y.stopped = true ∧ sent = 0

theorem Kept.same (x : Ticker) : Kept x x 0 0 := ⟨by omega, fun h => ⟨h, rfl⟩⟩

theorem take_kept {t t' : Timed} {q r : Clockwork} {j : Option Nat} (h : t.take r j = some t') {k : Nat} {x : Ticker}
    (hx : (t.tickers q)[k]? = some x) : ∃ y, (t'.tickers q)[k]? = some y ∧ Kept x y (if r = q ∧ j = some k then 1 else 0) 0 := by
  obtain ⟨j, z, rfl, hz, ht, rfl⟩ := take_eq h
  simp only [Timed.put]
  by_cases hr : q = r
  · subst hr
    rw [if_pos rfl]
    by_cases hj : j = k
    · subst hj
      rw [hx] at hz
      cases hz
      refine ⟨{ x with tick := false }, ?_, ?_⟩
      · simp [(List.getElem?_eq_some_iff.mp hx).1]
      · rw [if_pos ⟨rfl, rfl⟩]
        exact ⟨by simp [waits, ht], fun h => ⟨h, rfl⟩⟩
    · refine ⟨x, ?_, ?_⟩
      · rw [List.getElem?_set_ne hj]; exact hx
      · rw [if_neg (by simp [hj])]
        exact .same x
  · rw [if_neg hr, if_neg (fun h => hr h.1.symm)]
    exact ⟨x, hx, .same x⟩

theorem make_kept {t : Timed} {q r : Clockwork} {d : Int} {k : Nat} {x : Ticker}
    (hx : (t.tickers q)[k]? = some x) : ((t.make r d).tickers q)[k]? = some x := by
  simp only [Timed.make, Timed.put]
  split
  · subst q
    rw [List.getElem?_append_left (List.getElem?_eq_some_iff.mp hx).1]
    exact hx
  · exact hx

theorem halt_kept {t : Timed} {b : Bool} {q r : Clockwork} {j : Option Nat} {k : Nat} {x : Ticker}
    (hx : (t.tickers q)[k]? = some x) : ∃ y, ((t.halt b r j).tickers q)[k]? = some y ∧ Kept x y 0 0 := by
  unfold Timed.halt
  split
  · exact ⟨x, hx, .same x⟩
  · rename_i j
    simp only [Timed.put]
    split
    · subst q
      rw [List.getElem?_modify]
      by_cases hj : j = k
      · subst hj
        refine ⟨x.stop b, by simp [hx], ?_, fun _ => ⟨rfl, rfl⟩⟩
        simp only [waits, Ticker.stop]
        by_cases h : x.tick = true <;> cases b <;> simp [h]
      · exact ⟨x, by simp [hx, hj], .same x⟩
    · exact ⟨x, hx, .same x⟩

theorem Kept.trans {x y z : Ticker} (h : Kept x y 0 0) (h' : Kept y z 0 0) : Kept x z 0 0 :=
  ⟨by have := h.count; have := h'.count; omega, fun hs => h'.stopped (h.stopped hs).1⟩

theorem exec_kept {b : Bool} {P : Params} {t t' : Timed} {a : TimedAct} (h : t.exec b P a = some t') {q : Clockwork} {k : Nat}
    {x : Ticker} (hx : (t.tickers q)[k]? = some x) :
    ∃ y, (t'.tickers q)[k]? = some y ∧ Kept x y (if receivesFrom q k t a then 1 else 0) (ticksSent q k [a]) := by
  unfold Timed.exec at h
  split at h
  · rename_i r j
    split at h
    · cases h
    · rename_i z hz
      split at h
      · rename_i hc
        cases h
        simp only [Bool.and_eq_true, Bool.not_eq_true', decide_eq_true_eq] at hc
        simp only [Timed.put, receivesFrom]
        by_cases hr : q = r
        · subst hr
          rw [if_pos rfl]
          by_cases hj : j = k
          · subst hj
            rw [hx] at hz
            cases hz
            refine ⟨x.fire t.clock, ?_, ?_, ?_⟩
            · simp [(List.getElem?_eq_some_iff.mp hx).1]
            · simp [ticksSent, waits, Ticker.fire]
            · intro hs; rw [hs] at hc; cases hc.1
          · refine ⟨x, ?_, ?_⟩
            · rw [List.getElem?_set_ne hj]; exact hx
            · simp only [ticksSent, List.countP_singleton, hj, and_false, decide_false]
              exact .same x
        · rw [if_neg hr]
          refine ⟨x, hx, ?_⟩
          simp only [ticksSent, List.countP_singleton, Ne.symm hr, false_and, decide_false]
          exact .same x
      · cases h
  · cases h
    exact ⟨x, hx, .same x⟩
  · rename_i a
    split at h
    · cases h
    · rename_i s hs
      obtain ⟨u, hu, rfl⟩ := Option.map_eq_some_iff.mp h
      show ∃ y, (u.tickers q)[k]? = some y ∧ _
      have hsent : ticksSent q k [.act a] = 0 := rfl
      rw [hsent]
      have none' : receives t.sys a ≠ some q → (if receivesFrom q k t (.act a) then 1 else 0) = 0 := by
        intro h; simp [receivesFrom, h]
      have taken : ∀ {r : Clockwork} {j : Option Nat}, receives t.sys a = some r → tickerOf t r a = j →
          t.take r j = some u → ∃ y, (u.tickers q)[k]? = some y ∧ Kept x y (if receivesFrom q k t (.act a) then 1 else 0) 0 := by
        intro r j h1 h2 h3
        obtain ⟨y, hy, hk⟩ := take_kept h3 hx
        refine ⟨y, hy, ?_⟩
        have : (if receivesFrom q k t (.act a) = true then 1 else 0) = if r = q ∧ j = some k then 1 else 0 := by
          simp only [receivesFrom, h1, ← h2]
          by_cases hr : r = q
          · subst hr; simp
          · simp [hr]
        rw [this]
        exact hk
      unfold Timed.follow at hu
      split at hu
      · rw [none' (by simp [receives])]
        split at hu <;> cases hu
        · exact ⟨x, make_kept (make_kept hx), .same x⟩
        · exact ⟨x, hx, .same x⟩
      · rw [none' (by simp [receives])]
        split at hu <;> cases hu
        · obtain ⟨y, hy, h1⟩ := halt_kept (b := b) (r := .poll) (j := t.poll) hx
          obtain ⟨z, hz, h2⟩ := halt_kept (b := b) (r := .gc) (j := t.gc) hy
          exact ⟨z, hz, h1.trans h2⟩
        · exact ⟨x, hx, .same x⟩
      · split at hu
        · rename_i ht
          rw [none' (by simp only [receives]; split <;> simp_all)]
          split at hu
          · cases hu; exact ⟨x, hx, .same x⟩
          · cases hu
        · rename_i ht
          exact taken (by simp only [receives, ht]) rfl hu
        · rename_i ht
          exact taken (by simp only [receives, ht]) rfl hu
        · rename_i ht
          rw [none' (by simp only [receives]; split <;> simp_all)]
          split at hu
          · cases hu; exact ⟨x, hx, .same x⟩
          · cases hu
            exact ⟨x, make_kept hx, .same x⟩
        · rename_i ht
          exact taken (by simp only [receives, ht]) rfl hu
        · rename_i h1 h2 h3 h4 h5
          rw [none']
          · cases hu; exact ⟨x, hx, .same x⟩
          · simp only [receives]
            split
            · rename_i he
              cases he
              split
              · exact absurd rfl (h3 _ _ ‹_›)
              · exact absurd rfl (h5 _ ‹_›)
              · simp
            · rename_i he
              cases he
              split
              · exact absurd rfl (h4 _ _ ‹_›)
              · simp
            · simp
      · rename_i h1 h2 h3
        rw [none' (by unfold receives; split <;> simp_all)]
        cases hu; exact ⟨x, hx, .same x⟩

theorem sent_cons (q : Clockwork) (k : Nat) (a : TimedAct) (as : List TimedAct) :
    ticksSent q k (a :: as) = ticksSent q k [a] + ticksSent q k as := by
  simp only [ticksSent, List.countP_cons, List.countP_nil]
  omega

theorem execs_kept {b : Bool} {P : Params} {q : Clockwork} {k : Nat} {as : List TimedAct} {t t' : Timed}
    (h : t.execs b P as = some t') {x : Ticker} (hx : (t.tickers q)[k]? = some x) :
    ∃ y, (t'.tickers q)[k]? = some y ∧ Kept x y (ticksTaken b P q k t as) (ticksSent q k as) := by
  induction as generalizing t x with
  | nil => cases h; exact ⟨x, hx, .same x⟩
  | cons a as ih =>
    simp only [Timed.execs] at h
    cases ha : t.exec b P a with
    | none => rw [ha] at h; cases h
    | some t1 =>
      rw [ha] at h
      obtain ⟨y, hy, h1⟩ := exec_kept ha hx
      obtain ⟨z, hz, h2⟩ := ih h hy
      refine ⟨z, hz, ?_, ?_⟩
      · simp only [ticksTaken, ha]
        rw [sent_cons]
        have := h1.count
        have := h2.count
        omega
      · intro hs
        obtain ⟨h3, h4⟩ := h1.stopped hs
        obtain ⟨h5, h6⟩ := h2.stopped h3
        exact ⟨h5, by rw [sent_cons, h4, h6]⟩

end Verif.Conc
