import Verif.Spec.Ledger
import Verif.Lemmas.Say
import Verif.Lemmas.ConcFrame
/-
One action and the datagrams between sendCh and the log.
-/
namespace Verif.Conc
open Packet Code Artnet Spec Props

def wHand (t : Thread) : Nat := t.writing.length
def wTook (c : Chans) : Nat := c.taken.length
def wSender (t : Thread) : Nat := if t.sends then 1 else 0

/-- What was taken from the channels, less what is in hand and what is written. -/
def Sys.due (s : Sys) : Int := (total wTook s.chans : Int) - total wHand s.threads - s.wire.length

/-- Connections made, less the sendLoops. -/
def Sys.spare (s : Sys) : Int := (s.conns.length : Int) - total wSender s.threads

def fails : Thread → Choice → Nat
  | .slWrite _, .fail => 1
  | _, _ => 0

def stops (s : Sys) : Thread → Choice → Nat
  | .slCheck _, .next => if s.shutdown then 1 else 0
  | _, _ => 0

structure Moves (s s' : Sys) (f g : Nat) : Prop where
  due : s'.due = s.due + f + g
  spare : s.spare + g ≤ s'.spare

/-- Only a failing write logs a failing write. -/
theorem failed_lines {P : Params} (s : Sys) (t : Thread) (c : Choice) :
    (s.stepLines P t c).count .writeFailed = fails t c := by
  unfold Sys.stepLines
  split
  all_goals first
  | rfl
  | skip
  · repeat' split
    all_goals rfl
  · split <;> rfl
  · repeat' split
    all_goals rfl
  · refine List.count_eq_zero.mpr fun hx => ?_
    obtain ⟨_, _, h⟩ := gcLines_stale _ _ _ _ rfl _ hx
    cases h
  · unfold replyLines
    dsimp only
    repeat' split
    all_goals rfl
  · rw [tickLines_nil]
    rfl
  · unfold sendLines
    repeat' split
    all_goals rfl
  · unfold fails
    split
    · simp_all
    · rfl

theorem lines_run {P : Params} {s : Sys} {a : Act} (h : .writeFailed ∈ s.lines P a) :
    ∃ i c t, a = .run i c ∧ s.threads[i]? = some t := by
  cases a with
  | run i c =>
    simp only [Sys.lines] at h
    split at h
    · cases h
    · rename_i t ht
      exact ⟨i, c, t, rfl, ht⟩
  | _ =>
    simp only [Sys.lines] at h
    repeat' split at h
    all_goals cases h
    all_goals rename_i h; cases h

theorem step_moves {P : Params} {s s' : Sys} {i : Nat} {t : Thread} {c : Choice} (ht : s.threads[i]? = some t)
    (h : s.step P i t c = some s') : Moves s s' (fails t c) (stops s t c) := by
  have go : ∀ (s1 : Sys) (t' : Thread) (ts : List Thread) (f g : Nat), s1.threads = s.threads.set i t' ++ ts →
      s1.conns.length = s.conns.length →
      (total wTook s1.chans : Int) = total wTook s.chans + (wHand t' - wHand t) + (s1.wire.length - s.wire.length) + f + g →
      total wHand ts = 0 → total wSender ts = 0 → wSender t' + g ≤ wSender t → Moves s s1 f g := by
    intro s1 t' ts f g h1 h2 h3 h4 h5 h6
    have e1 := total_set wHand ht t'
    have e2 := total_set wSender ht t'
    refine ⟨?_, ?_⟩
    · simp only [Sys.due, h1, total_append, h4]
      omega
    · simp only [Sys.spare, h1, h2, total_append, h5]
      omega
  have same : ∀ {g : Nat} {ch ch' : Chans}, s.chans[g]? = some ch → wTook ch' = wTook ch →
      total wTook (s.chans.set g ch') = total wTook s.chans := by
    intro g ch ch' hg he
    have := total_set wTook hg ch'
    omega
  have more : ∀ {g : Nat} {ch ch' : Chans}, s.chans[g]? = some ch → wTook ch' = wTook ch + 1 →
      total wTook (s.chans.set g ch') = total wTook s.chans + 1 := by
    intro g ch ch' hg he
    have := total_set wTook hg ch'
    omega
  have comm : ∀ {g : Nat} {f : Chans → Option Chans} {s1 : Sys} (_ : s.comm g f = some s1),
      (∀ c c', f c = some c' → wTook c' = wTook c) →
      s1.threads = s.threads ∧ s1.conns = s.conns ∧ s1.wire = s.wire ∧ total wTook s1.chans = total wTook s.chans := by
    intro g f s1 h hf
    obtain ⟨ch, ch', hg, hfc, rfl⟩ := comm_eq h
    exact ⟨rfl, rfl, rfl, same hg (hf _ _ hfc)⟩
  have push : ∀ p c c', Chans.pushSend p c = some c' → wTook c' = wTook c := by
    intro p c c' h; simp only [Chans.pushSend] at h; split at h <;> cases h; rfl
  have push2 : ∀ p c c', Chans.pushRecv p c = some c' → wTook c' = wTook c := by
    intro p c c' h; simp only [Chans.pushRecv] at h; split at h <;> cases h; rfl
  have push3 : ∀ p c c', Chans.pushPoll p c = some c' → wTook c' = wTook c := by
    intro p c c' h; simp only [Chans.pushPoll] at h; split at h <;> cases h; rfl
  have push4 : ∀ p c c', Chans.pushReply p c = some c' → wTook c' = wTook c := by
    intro p c c' h; simp only [Chans.pushReply] at h; split at h <;> cases h; rfl
  have stay : ∀ (s1 : Sys), s1.threads = s.threads → s1.conns = s.conns → s1.wire = s.wire → s1.chans = s.chans →
      Moves s s1 0 0 := by
    intro s1 h1 h2 h3 h4
    exact ⟨by simp [Sys.due, h1, h3, h4], by simp [Sys.spare, h1, h2]⟩
  have plain : ∀ (s1 : Sys) (t' : Thread) (f g : Nat), s1.threads = s.threads.set i t' → s1.conns = s.conns →
      s1.wire = s.wire → s1.chans = s.chans → wHand t' = wHand t → wSender t' = 0 → f = 0 → g = 0 → Moves s s1 f g := by
    rintro s1 t' f g h1 h2 h3 h4 h5 h6 rfl rfl
    exact go s1 t' [] 0 0 (by rw [h1, List.append_nil]) (by rw [h2]) (by rw [h3, h4, h5]; simp) rfl rfl (by omega)
  have on : ∀ (s1 : Sys) (t' : Thread) (f g : Nat), s1.threads = s.threads.set i t' → s1.conns = s.conns →
      s1.wire = s.wire → s1.chans = s.chans → wHand t' = wHand t → wSender t' = wSender t → f = 0 → g = 0 → Moves s s1 f g := by
    rintro s1 t' f g h1 h2 h3 h4 h5 h6 rfl rfl
    exact go s1 t' [] 0 0 (by rw [h1, List.append_nil]) (by rw [h2]) (by rw [h3, h4, h5]; simp) rfl rfl (by omega)
  have spawn : ∀ (s1 : Sys) (t' t1 : Thread) (f g : Nat), s1.threads = s.threads.set i t' ++ [t1] → s1.conns = s.conns →
      s1.wire = s.wire → s1.chans = s.chans → wHand t' = wHand t → wSender t' = 0 → wHand t1 = 0 → wSender t1 = 0 →
      f = 0 → g = 0 → Moves s s1 f g := by
    rintro s1 t' t1 f g h1 h2 h3 h4 h5 h6 h7 h8 rfl rfl
    exact go s1 t' [t1] 0 0 h1 (by rw [h2]) (by rw [h3, h4, h5]; simp) (by simp [h7]) (by simp [h8]) (by omega)
  have chan : ∀ (s1 : Sys) (t' : Thread) (k : Nat) (ch ch' : Chans) (f g : Nat), s.chans[k]? = some ch →
      s1.chans = s.chans.set k ch' → wTook ch' = wTook ch → s1.threads = s.threads.set i t' →
      s1.conns = s.conns → s1.wire = s.wire → wHand t' = wHand t → wSender t' = 0 → f = 0 → g = 0 → Moves s s1 f g := by
    rintro s1 t' k ch ch' f g hk hc ht h1 h2 h3 h5 h6 rfl rfl
    exact go s1 t' [] 0 0 (by rw [h1, List.append_nil]) (by rw [h2]) (by rw [h3, hc, same hk ht, h5]; simp) rfl rfl (by omega)
  have told : ∀ {k : Nat} {f : Chans → Option Chans} {s0 : Sys} (_ : s.comm k f = some s0)
      (_ : ∀ c c', f c = some c' → wTook c' = wTook c) (s1 : Sys) (t' : Thread) (f g : Nat), s1.chans = s0.chans →
      s1.threads = s0.threads.set i t' → s1.conns = s0.conns → s1.wire = s0.wire →
      wHand t' = wHand t → wSender t' = 0 → f = 0 → g = 0 → Moves s s1 f g := by
    intro k f s0 h0 hf s1 t' f g hc h1 h2 h3 h5 h6 h7 h8
    obtain ⟨ch, ch', hg, hfc, rfl⟩ := comm_eq h0
    exact chan s1 t' k ch ch' f g hg hc (hf _ _ hfc) h1 h2 h3 h5 h6 h7 h8
  unfold Sys.step at h
  split at h
  all_goals
    try (obtain ⟨g, hg, rfl⟩ := Option.map_eq_some_iff.mp h)
    first
    | exact plain _ _ _ _ rfl rfl rfl rfl rfl rfl rfl rfl
    | exact on _ _ _ _ rfl rfl rfl rfl rfl rfl rfl rfl
    | exact told hg (push _) _ _ _ _ rfl rfl rfl rfl rfl rfl rfl rfl
    | exact told hg (push2 _) _ _ _ _ rfl rfl rfl rfl rfl rfl rfl rfl
    | exact told hg (push3 _) _ _ _ _ rfl rfl rfl rfl rfl rfl rfl rfl
    | exact told hg (push4 _) _ _ _ _ rfl rfl rfl rfl rfl rfl rfl rfl
    | (try dsimp only at h
       repeat' split at h
       all_goals first
       | (cases h; done)
       | (cases h; exact stay _ rfl rfl rfl rfl)
       | (cases h; exact plain _ _ _ _ rfl rfl rfl rfl rfl rfl rfl rfl)
       | (cases h; exact on _ _ _ _ rfl rfl rfl rfl rfl rfl rfl rfl)
       | (cases h; exact spawn _ _ _ _ _ rfl rfl rfl rfl rfl rfl rfl rfl rfl rfl)
       | (cases h
          rename_i hg _ _ _ _
          exact chan _ _ _ _ _ _ _ hg rfl rfl rfl rfl rfl rfl rfl rfl rfl)
       | (cases h; skip))
  · rename_i hg _ p q _
    refine go _ _ [] _ _ (List.append_nil _).symm rfl ?_ rfl rfl (Nat.le_refl 1)
    dsimp only [Sys.goto]
    rw [more hg (by simp [wTook])]
    simp [wHand, Thread.writing, fails, stops]
  · rename_i hs
    refine go _ _ [] _ _ (List.append_nil _).symm rfl ?_ rfl rfl ?_
    · simp [Sys.goto, wHand, Thread.writing, fails, stops, hs]
      omega
    · simp [wSender, Thread.sends, stops, hs]
  · rename_i hs
    refine go _ _ [] _ _ (List.append_nil _).symm rfl ?_ rfl rfl ?_
    · simp [Sys.goto, wHand, Thread.writing, fails, stops, hs]
    · simp [wSender, Thread.sends, stops, hs]
  · refine go _ _ [] _ _ (List.append_nil _).symm rfl ?_ rfl rfl (Nat.le_refl 1)
    simp [Sys.goto, wHand, Thread.writing, fails, stops]
    omega
  · refine go _ _ [] _ _ (List.append_nil _).symm rfl ?_ rfl rfl (Nat.le_refl 1)
    simp [Sys.goto, wHand, Thread.writing, fails, stops]
    omega

theorem exec_moves {P : Params} {s s' : Sys} {a : Act} (h : s.exec P a = some s') :
    Moves s s' ((s.lines P a).count .writeFailed) (s.gives a) := by
  have quiet : (∀ i c, a ≠ .run i c) → (s.lines P a).count .writeFailed = 0 ∧ s.gives a = 0 := by
    intro hn
    refine ⟨List.count_eq_zero.mpr ?_, ?_⟩
    · intro hx
      rcases lines_run hx with ⟨i, c, t, rfl, _⟩
      exact hn i c rfl
    · cases a with
      | run i c => exact absurd rfl (hn i c)
      | _ => rfl
  have keep : ∀ (s1 : Sys), s1.threads = s.threads → s1.chans = s.chans → s1.wire = s.wire →
      s1.conns.length = s.conns.length → Moves s s1 0 0 := by
    intro s1 h1 h2 h3 h4
    exact ⟨by simp [Sys.due, h1, h2, h3], by simp [Sys.spare, h1, h4]⟩
  have hclose : s.closeConn.length = s.conns.length := by
    unfold Sys.closeConn
    split
    · rfl
    · exact List.length_set
  have make : ∀ (s1 : Sys), s1.threads = s.threads → s1.chans = s.chans ++ [Chans.make] → s1.wire = s.wire →
      s1.conns = s.conns → Moves s s1 0 0 := by
    intro s1 h1 h2 h3 h4
    exact ⟨by simp [Sys.due, h1, h2, h3, wTook, Chans.make], by simp [Sys.spare, h1, h4]⟩
  have caller : ∀ (s1 : Sys) (d : Arr 512) (b : Address), s1.threads = s.threads ++ [.caller d b] → s1.chans = s.chans →
      s1.wire = s.wire → s1.conns = s.conns → Moves s s1 0 0 := by
    intro s1 d b h1 h2 h3 h4
    exact ⟨by simp [Sys.due, h1, h2, h3, wHand, Thread.writing], by simp [Sys.spare, h1, h4, wSender, Thread.sends]⟩
  have opened : ∀ (s1 : Sys), s1.threads = s.threads ++ P.goroutines → s1.chans = s.chans → s1.wire = s.wire →
      s1.conns = s.conns ++ [true] → Moves s s1 0 0 := by
    intro s1 h1 h2 h3 h4
    have e1 : total wHand P.goroutines = 0 := goroutines_weightless P wHand rfl rfl rfl rfl rfl
    have e2 : total wSender P.goroutines = 1 := by
      unfold Params.goroutines
      split <;> rfl
    refine ⟨by simp [Sys.due, h1, h2, h3, e1], ?_⟩
    simp only [Sys.spare, h1, h4, total_append, e2, List.length_append, List.length_singleton]
    omega
  have closed : ∀ (s1 : Sys) (k : Nat) (ch ch' : Chans), s.chans[k]? = some ch → s1.threads = s.threads →
      s1.chans = s.chans.set k ch' → wTook ch' = wTook ch → s1.wire = s.wire → s1.conns = s.conns → Moves s s1 0 0 := by
    intro s1 k ch ch' hk h1 h2 he h3 h4
    have := total_set wTook hk ch'
    refine ⟨?_, by simp [Sys.spare, h1, h4]⟩
    simp only [Sys.due, h1, h2, h3]
    omega
  cases a with
  | run i c =>
    unfold Sys.exec at h
    split at h
    · cases h
    · dsimp only at h
      cases ht : s.threads[i]? with
      | none => rw [ht] at h; cases h
      | some t =>
        rw [ht] at h
        have hm := step_moves ht h
        have h1 : (s.lines P (.run i c)).count .writeFailed = fails t c := by
          simp only [Sys.lines, ht]
          exact failed_lines s t c
        have h2 : s.gives (.run i c) = stops s t c := by
          unfold Sys.gives stops
          cases c with
          | next =>
            simp only [ht]
            cases t <;> rfl
          | _ => cases t <;> rfl
        rw [h1, h2]
        exact hm
  | _ =>
    have hq := quiet nofun
    rw [hq.1, hq.2]
    unfold Sys.exec at h
    split at h
    · cases h
    · dsimp only at h
      repeat' split at h
      all_goals first
      | (cases h; done)
      | (cases h; exact keep _ rfl rfl rfl rfl)
      | (cases h; exact keep _ rfl rfl rfl hclose)
      | (cases h; exact make _ rfl rfl rfl rfl)
      | (cases h; exact caller _ _ _ rfl rfl rfl rfl)
      | (cases h; exact opened _ rfl rfl rfl rfl)
      | (cases h; rename_i hk _; exact closed _ _ _ _ hk rfl rfl rfl rfl rfl)

theorem log_moves {P : Params} {s s' : Sys} {as : List Act} (h : s.execs P as = some s') :
    Moves s s' ((s.log P as).count .writeFailed) (s.givenUp P as) := by
  induction as generalizing s with
  | nil =>
    cases h
    exact ⟨by simp [Sys.log, Sys.givenUp], by simp [Sys.givenUp]⟩
  | cons a as ih =>
    unfold Sys.execs at h
    split at h
    · cases h
    · rename_i s1 h1
      unfold Sys.log Sys.givenUp
      rw [h1]
      dsimp only
      have m1 := exec_moves h1
      have m2 := ih h
      refine ⟨?_, ?_⟩
      · rw [m2.due, m1.due, List.count_append]
        omega
      · have := m1.spare
        have := m2.spare
        omega

/-- The Node was not started yet, or it runs. -/
def NotStopped (s : Sys) : Prop := s.shutdown = true → s.conns = [] ∧ s.control ≠ .listening

theorem notStopped_exec {P : Params} {s s' : Sys} {a : Act} (h : s.exec P a = some s') (ha : a ≠ .stop) (hn : NotStopped s) :
    NotStopped s' := by
  cases a with
  | stop => exact absurd rfl ha
  | run i c =>
    unfold Sys.exec at h
    split at h
    · cases h
    · dsimp only at h
      split at h
      · cases h
      · have hf := step_frame h
        unfold NotStopped
        rw [hf.shutdown, hf.conns, hf.control]
        exact hn
  | listen ok =>
    unfold Sys.exec at h
    split at h
    · cases h
    · dsimp only at h
      split at h
      · cases h
      · rename_i hc
        have hc : s.control = .listening := Classical.not_not.mp hc
        intro hs
        have hs' : s.shutdown = true := by
          split at h
          all_goals cases h; exact hs
        exact absurd hc (hn hs').2
  | stopStep =>
    unfold Sys.exec at h
    split at h
    · cases h
    · dsimp only at h
      have hc : s.conns = [] → s.closeConn = [] := by
        intro he
        unfold Sys.closeConn
        split
        · exact he
        · rw [he]; rfl
      repeat' split at h
      all_goals first
      | (cases h; done)
      | (cases h; exact hn)
      | (cases h; exact fun hs => ⟨(hn hs).1, nofun⟩)
      | (cases h; exact fun hs => ⟨hc (hn hs).1, nofun⟩)
  | _ =>
    unfold Sys.exec at h
    split at h
    · cases h
    · dsimp only at h
      repeat' split at h
      all_goals first
      | (cases h; done)
      | (cases h; exact hn)
      | (cases h; exact nofun)

/-- Without Stop nothing is given up. -/
theorem givenUp_zero {P : Params} {as : List Act} {s s' : Sys} (h : s.execs P as = some s') (hn : NotStopped s)
    (hs : 0 ≤ s.spare) (ha : .stop ∉ as) : s.givenUp P as = 0 := by
  induction as generalizing s with
  | nil => rfl
  | cons a as ih =>
    unfold Sys.execs at h
    split at h
    · cases h
    · rename_i s1 h1
      have hm := (exec_moves h1).spare
      have h2 := ih h (notStopped_exec h1 (fun e => ha (e ▸ List.mem_cons_self ..)) hn) (by omega)
        (fun e => ha (List.mem_cons_of_mem _ e))
      unfold Sys.givenUp
      rw [h1]
      dsimp only
      rw [h2]
      unfold Sys.gives
      split
      · split
        · rename_i i _ ht
          split
          · rename_i hsh
            have h3 := total_ge wSender ht
            have h4 := (hn hsh).1
            simp only [Sys.spare, h4, List.length_nil] at hs
            simp only [wSender, Thread.sends, if_true] at h3
            omega
          · rfl
        · rfl
      · rfl

end Verif.Conc
