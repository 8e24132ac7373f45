import Verif.Lemmas.Ticker
import Verif.Spec.Tickers
import Verif.Spec.Traffic
/-
The tickers: what the actions do with them.
-/
namespace Verif.Conc
open Packet Code Artnet Spec

/-- In dmxUpdateLoop, with a ticker. -/
def Thread.updating : Thread → Bool
  | .duTop | .duWait _ | .duLock | .duTick _ _ _ | .duSend _ _ _ _ _ => true
  | _ => false

def wInit (t : Thread) : Nat := if t = .duInit then 1 else 0
def wLock : Thread → Nat
  | .duLock => 1
  | _ => 0
def isWait : Thread → Bool
  | .plWait _ _ => true
  | _ => false
def gets : Thread → Choice → Nat
  | .duWait _, .tick => 1
  | _, _ => 0

/-- Where a step can lead. -/
structure Fits (P : Params) (s s' : Sys) (t : Thread) (c : Choice) (t' : Thread) : Prop where
  poller : wPoller t' = 1 → wPoller t = 1
  wait : isWait t' = true → t = .plTop ∨ t' = t
  upd : t'.updating = true → t.updating = true ∨ (t = .duInit ∧ ∃ d, tickerPeriod P.maxFPS = .ok d)
  init : t' = .duInit → t = .duInit
  lock : s'.hist.countP isTick + wLock t' ≤ s.hist.countP isTick + wLock t + gets t c

theorem step_next {P : Params} {s s' : Sys} {i : Nat} {t : Thread} {c : Choice} (ht : s.threads[i]? = some t)
    (h : s.step P i t c = some s') : ∃ t' ts, s'.threads = s.threads.set i t' ++ ts ∧ Fits P s s' t c t' ∧
      ∀ x ∈ ts, wPoller x = 0 ∧ x.updating = false ∧ wInit x = 0 ∧ wLock x = 0 := by
  have hset : s.threads.set i t = s.threads := by
    obtain ⟨hlt, rfl⟩ := List.getElem?_eq_some_iff.mp ht
    simp
  by_cases hw : ∃ k, t = .duWait k
  · obtain ⟨k, rfl⟩ := hw
    cases c <;> simp only [Sys.step] at h <;> first | (cases h; done) | skip
    · split at h
      · cases h
        exact ⟨.done, [], by simp [Sys.goto],
          ⟨by simp [wPoller], by simp [isWait], by simp [Thread.updating], by simp, by simp [wLock, Sys.goto]⟩, by simp⟩
      · cases h
    · cases h
      exact ⟨.duLock, [], by simp [Sys.goto],
        ⟨by simp [wPoller], by simp [isWait], fun _ => .inl rfl, by simp, by simp [wLock, Sys.goto, gets]⟩, by simp⟩
  by_cases hw' : t = .duInit
  · subst hw'
    cases c <;> simp only [Sys.step] at h <;> first | (cases h; done) | skip
    split at h
    · cases h
      exact ⟨.duInit, [], by simp [Sys.panic, hset], ⟨id, fun _ => .inr rfl, .inl, id, Nat.le_add_right _ _⟩, by simp⟩
    · rename_i d hd
      cases h
      exact ⟨.duTop, [], by simp [Sys.goto],
        ⟨by simp [wPoller], by simp [isWait], fun _ => .inr ⟨rfl, d, hd⟩, by simp, by simp [wLock, Sys.goto]⟩, by simp⟩
  have hrun := step_Run h
  cases hrun with
  | panic => exact ⟨t, [], by simp [Sys.panic, hset], ⟨id, fun _ => .inr rfl, .inl, id, Nat.le_add_right _ _⟩, by simp⟩
  | @move _ _ t' m hq =>
    refine ⟨t', [], by simp [Sys.goto], ?_, by simp⟩
    cases m
    case duInit => exact absurd rfl hw'
    case duTick => exact absurd ⟨_, rfl⟩ hw
    all_goals
    exact ⟨by simp [wPoller], by simp [isWait], by simp [Thread.updating], by simp, by simp [wLock, Sys.goto]⟩
  | @pushSend _ _ t' _ _ _ k hg =>
    refine ⟨t', [], by simp [Sys.goto, Sys.setCh], ?_, by simp⟩
    cases k <;>
    exact ⟨by simp [wPoller], by simp [isWait], by simp [Thread.updating], by simp, by simp [wLock, Sys.goto, Sys.setCh]⟩
  | spawnReader =>
    exact ⟨.rlTop, [.rdTop (List.replicate bufSize 0)], by simp [Sys.goto],
      ⟨by simp [wPoller], by simp [isWait], by simp [Thread.updating], by simp, by simp [wLock, Sys.goto]⟩,
      by simp [wPoller, Thread.updating, wInit, wLock]⟩
  | @spawnHandler _ _ q =>
    exact ⟨.rlTop, [.hStart q], by simp [Sys.goto],
      ⟨by simp [wPoller], by simp [isWait], by simp [Thread.updating], by simp, by simp [wLock, Sys.goto]⟩,
      by simp [wPoller, Thread.updating, wInit, wLock]⟩
  | @call _ _ _ t' _ hc =>
    refine ⟨t', [], by simp [Sys.goto], ?_, by simp⟩
    cases hc <;>
    exact ⟨by simp [wPoller], by simp [isWait], by simp [Thread.updating], by simp, by simp [wLock, Sys.goto]⟩
  | popPoll | popSend | popRecv | popReply | pushDmx | pushRecv | pushPoll | pushOwn | pushReply | write | reject | arrive | lose
  | accept | drop | gc | ignore | reply | lock | unlock | tickAt | sendDMX =>
    refine ⟨_, [], (List.append_nil _).symm,
      ⟨by simp [wPoller], by simp [isWait], by simp [Thread.updating], by simp, ?_⟩, by simp⟩
    simp [wLock, Sys.goto, Sys.setCh, isTick, List.countP_append]

/-- The period of the tickers of a variable. -/
def Rated (P : Params) : Clockwork → Int → Prop
  | .poll, d | .gc, d => d = pollInterval
  | .update, d => tickerPeriod P.maxFPS = .ok d

/-- What an action does with the tickers of a variable, and how many ticks it receives. -/
inductive Wind (P : Params) (q : Clockwork) (clock : Int) : List Ticker → List Ticker → Nat → Prop
  | same {l} : Wind P q clock l l 0
  | new {l d} (hd : Rated P q d) : Wind P q clock l (l ++ [Ticker.new clock d]) 0
  | stop {l} (k : Nat) (b : Bool) : Wind P q clock l (l.modify k (Ticker.stop b)) 0
  | take {l : List Ticker} {k : Nat} {x : Ticker} (h : l[k]? = some x) (ht : x.tick = true) :
      Wind P q clock l (l.set k { x with tick := false }) 1
  | fire {l : List Ticker} {k : Nat} {x : Ticker} (h : l[k]? = some x) (hs : x.stopped = false) (hd : x.due ≤ clock) :
      Wind P q clock l (l.set k (x.fire clock)) 0

/-- How many ticks of a variable an action receives. -/
def got (s : Sys) (q : Clockwork) : TimedAct → Nat
  | .act a => if receives s a = some q then 1 else 0
  | _ => 0

theorem take_eq {t t' : Timed} {q : Clockwork} {k : Option Nat} (h : t.take q k = some t') :
    ∃ j x, k = some j ∧ (t.tickers q)[j]? = some x ∧ x.tick = true ∧ t' = t.put q ((t.tickers q).set j { x with tick := false }) := by
  unfold Timed.take at h
  split at h
  · cases h
  · split at h
    · cases h
    · split at h
      · cases h; exact ⟨_, _, rfl, ‹_›, ‹_›, rfl⟩
      · cases h

theorem halt_wind (P : Params) (t : Timed) (c : Int) (b : Bool) (q r : Clockwork) (k : Option Nat) :
    Wind P r c (t.tickers r) ((t.halt b q k).tickers r) 0 ∧ (r ≠ q → (t.halt b q k).tickers r = t.tickers r) := by
  unfold Timed.halt
  split
  · exact ⟨.same, fun _ => rfl⟩
  · simp only [Timed.put]
    split
    · subst r
      exact ⟨.stop _ _, fun h => absurd rfl h⟩
    · exact ⟨.same, fun _ => rfl⟩

theorem halt_clock (t : Timed) (b : Bool) (q : Clockwork) (k : Option Nat) : (t.halt b q k).clock = t.clock := by
  unfold Timed.halt; split <;> rfl

theorem take_wind {P : Params} {t t' : Timed} {q r : Clockwork} {k : Option Nat} (c : Int) (h : t.take q k = some t') :
    Wind P r c (t.tickers r) (t'.tickers r) (if q = r then 1 else 0) ∧ t'.clock = t.clock := by
  obtain ⟨j, x, rfl, hx, ht, rfl⟩ := take_eq h
  refine ⟨?_, rfl⟩
  simp only [Timed.put]
  by_cases hq : r = q
  · subst hq
    rw [if_pos rfl, if_pos rfl]
    exact .take hx ht
  · rw [if_neg hq, if_neg (Ne.symm hq)]
    exact .same

theorem follow_wind {b : Bool} {P : Params} {t t' : Timed} {a : Act} (h : t.follow b P a = some t') (q : Clockwork) :
    Wind P q t.clock (t.tickers q) (t'.tickers q) (if receives t.sys a = some q then 1 else 0) ∧ t'.clock = t.clock := by
  unfold Timed.follow at h
  split at h
  · split at h <;> cases h
    · refine ⟨?_, rfl⟩
      rw [if_neg (by simp [receives])]
      cases q
      · exact .new rfl
      · exact .new rfl
      · exact .same
    · exact ⟨.same, rfl⟩
  · split at h <;> cases h
    · refine ⟨?_, by rw [halt_clock, halt_clock]⟩
      rw [if_neg (by simp [receives])]
      by_cases hq : q = .gc
      · subst hq
        have h1 := (halt_wind P t t.clock b .poll .gc t.poll).2 (by simp)
        have h2 := (halt_wind P (t.halt b .poll t.poll) t.clock b .gc .gc t.gc).1
        rwa [h1] at h2
      · rw [(halt_wind P (t.halt b .poll t.poll) t.clock b .gc q t.gc).2 hq]
        exact (halt_wind P t t.clock b .poll q t.poll).1
    · exact ⟨.same, rfl⟩
  · rename_i i c
    split at h
    · rename_i ht
      split at h
      · cases h
        refine ⟨?_, rfl⟩
        rw [if_neg (by simp only [receives]; split <;> simp_all)]
        exact .same
      · cases h
    · rename_i ht
      simpa only [receives, ht, Option.some.injEq] using take_wind t.clock h
    · rename_i ht
      simpa only [receives, ht, Option.some.injEq] using take_wind t.clock h
    · rename_i ht
      rw [if_neg (by simp only [receives]; split <;> simp_all)]
      split at h
      · cases h; exact ⟨.same, rfl⟩
      · rename_i d hd
        cases h
        refine ⟨?_, rfl⟩
        cases q
        · exact .same
        · exact .same
        · exact .new hd
    · rename_i ht
      simpa only [receives, ht, Option.some.injEq] using take_wind t.clock h
    · rename_i h1 h2 h3 h4 h5
      cases h
      refine ⟨?_, rfl⟩
      rw [if_neg]
      · exact .same
      · simp only [receives]
        split
        · rename_i he
          cases he
          split
          · exact absurd rfl (h3 _ _ ‹_›)
          · exact absurd rfl (h5 _ ‹_›)
          · simp
        · rename_i he
          cases he
          split
          · exact absurd rfl (h4 _ _ ‹_›)
          · simp
        · simp
  · rename_i h1 h2 h3
    cases h
    refine ⟨?_, rfl⟩
    rw [if_neg]
    · exact .same
    · unfold receives
      split <;> simp_all

theorem exec_wind {b : Bool} {P : Params} {t t' : Timed} {a : TimedAct} (h : t.exec b P a = some t') (q : Clockwork) :
    Wind P q t.clock (t.tickers q) (t'.tickers q) (got t.sys q a) ∧ t.clock ≤ t'.clock := by
  unfold Timed.exec at h
  split at h
  · rename_i r k
    split at h
    · cases h
    · rename_i x hx
      split at h
      · rename_i hc
        cases h
        refine ⟨?_, Int.le_refl _⟩
        simp only [Bool.and_eq_true, Bool.not_eq_true', decide_eq_true_eq] at hc
        simp only [Timed.put, got]
        split
        · subst q
          exact .fire hx hc.1 hc.2
        · exact .same
      · cases h
  · cases h
    exact ⟨.same, by show t.clock ≤ t.clock + _; omega⟩
  · rename_i a
    split at h
    · cases h
    · obtain ⟨u, hu, rfl⟩ := Option.map_eq_some_iff.mp h
      obtain ⟨h1, h2⟩ := follow_wind hu q
      exact ⟨h1, Int.le_of_eq h2.symm⟩

/-- The system goes through the same actions. -/
theorem exec_sys {b : Bool} {P : Params} {t t' : Timed} {a : TimedAct} (h : t.exec b P a = some t') :
    t.sys.execs P (programActs [a]) = some t'.sys := by
  unfold Timed.exec at h
  split at h
  · split at h
    · cases h
    · split at h <;> cases h
      rfl
  · cases h; rfl
  · split at h
    · cases h
    · rename_i s hs
      obtain ⟨u, hu, rfl⟩ := Option.map_eq_some_iff.mp h
      simp only [programActs, List.filterMap_cons, List.filterMap_nil, Sys.execs, hs]

end Verif.Conc
