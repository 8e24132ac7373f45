import Verif.Spec.Fair
import Verif.Lemmas.ConcLive
/-
Consequences of fairness: what waits is served.
-/
namespace Verif.Conc
open Packet Code Artnet Spec

/-- Every step of a goroutine changes its program counter. -/
theorem run_ne {P : Params} {s s' : Sys} {i : Nat} {t : Thread} {c : Choice} (ht : s.threads[i]? = some t)
    (h : Run P s i t c s') (hcr : s'.crashed = none) : s'.threads[i]? ≠ some t := by
  have hlt := (List.getElem?_eq_some_iff.mp ht).1
  have set : ∀ {t' : Thread}, t' ≠ t → (s.threads.set i t')[i]? ≠ some t := by
    intro t' hne
    rw [List.getElem?_set_self hlt]
    exact fun h => hne (Option.some.inj h)
  have app : ∀ {t' : Thread} {l : List Thread}, t' ≠ t → (s.threads.set i t' ++ l)[i]? ≠ some t := by
    intro t' l hne
    rw [List.getElem?_append_left (by simpa using hlt)]
    exact set hne
  cases h with
  | panic => cases hcr
  | move m _ => refine set ?_; cases m <;> nofun
  | pushSend k _ _ => refine set ?_; cases k <;> nofun
  | call _ hc => refine set ?_; cases hc <;> nofun
  | spawnReader => exact app nofun
  | spawnHandler => exact app nofun
  | tickAt =>
    refine set ?_
    intro h
    have := (Thread.duTick.inj h).2.1
    exact absurd (congrArg List.length this) (by simp)
  | _ => exact set nofun

/-- Only goroutine `i` changes its program counter. -/
theorem exec_other {P : Params} {s s' : Sys} {a : Act} {i : Nat} {t : Thread} (hx : s.exec P a = some s')
    (ht : s.threads[i]? = some t) (ha : ∀ c, a ≠ .run i c) : s'.threads[i]? = some t := by
  have hlt := (List.getElem?_eq_some_iff.mp ht).1
  have hcr := (exec_Step hx).1
  have app : ∀ {l : List Thread}, (s.threads ++ l)[i]? = some t := by
    intro l; rw [List.getElem?_append_left hlt]; exact ht
  cases a with
  | run j c =>
    have hij : j ≠ i := fun h => ha c (by rw [h])
    cases htj : s.threads[j]? with
    | none =>
      unfold Sys.exec at hx
      rw [hcr, if_neg (by simp)] at hx
      simp only [htj] at hx
      cases hx
    | some u =>
      rw [exec_run hcr htj] at hx
      have old : ∀ {t' : Thread}, (s.threads.set j t')[i]? = some t := by
        intro t'; rw [List.getElem?_set_ne hij]; exact ht
      have old' : ∀ {t' : Thread} {l}, (s.threads.set j t' ++ l)[i]? = some t := by
        intro t' l; rw [List.getElem?_append_left (by simpa using hlt)]; exact old
      cases step_Run hx with
      | panic => exact ht
      | spawnReader => exact old'
      | spawnHandler => exact old'
      | _ => exact old
  | start =>
    unfold Sys.exec at hx
    rw [hcr, if_neg (by simp)] at hx
    simp only at hx
    have e : (if P.controller = true then s.resetTables else s).threads = s.threads := by split <;> rfl
    split at hx
    · cases hx
    split at hx <;> cases hx
    · show (if P.controller = true then s.resetTables else s).threads[i]? = _; rw [e]; exact ht
    · show (if P.controller = true then s.resetTables else s).threads[i]? = _; rw [e]; exact ht
    · show (if P.controller = true then s.resetTables else s).threads[i]? = _; rw [e]; exact ht
  | listen ok =>
    unfold Sys.exec at hx
    rw [hcr, if_neg (by simp)] at hx
    simp only at hx
    split at hx
    · cases hx
    split at hx <;> cases hx
    · exact app
    · exact ht
  | stop =>
    unfold Sys.exec at hx
    rw [hcr, if_neg (by simp)] at hx
    simp only at hx
    split at hx
    · cases hx
    split at hx <;> cases hx <;> exact ht
  | stopStep =>
    unfold Sys.exec at hx
    rw [hcr, if_neg (by simp)] at hx
    simp only at hx
    repeat' split at hx
    all_goals (cases hx; try exact ht)
  | register o h =>
    unfold Sys.exec at hx
    rw [hcr, if_neg (by simp)] at hx
    simp only at hx
    split at hx
    · cases hx
    split at hx <;> cases hx <;> exact ht
  | deregister o =>
    unfold Sys.exec at hx
    rw [hcr, if_neg (by simp)] at hx
    simp only at hx
    split at hx
    · cases hx
    split at hx <;> cases hx <;> exact ht
  | call d x =>
    unfold Sys.exec at hx
    rw [hcr, if_neg (by simp)] at hx
    simp only at hx
    split at hx <;> cases hx
    exact app

/-- What a goroutine at `t` waits for. -/
def need (g : Nat) (s : Sys) : Thread → Prop
  | .prSend _ _ | .plSend _ | .duSend _ _ _ _ _ => ∃ ch, s.chans[g]? = some ch ∧ ch.send.length < capacity
  | .rdPush _ _ _ => ∃ ch, s.chans[g]? = some ch ∧ ch.recv.length < capacity
  | .hPoll _ _ | .plPoll _ => ∃ ch, s.chans[g]? = some ch ∧ ch.poll.length < capacity
  | .hReply _ _ => ∃ ch, s.chans[g]? = some ch ∧ ch.pollReply.length < capacity
  | .plGc | .plGot _ | .duLock | .caller _ _ => s.lock = false
  | .prWait _ _ => ∃ ch, s.chans[g]? = some ch ∧ ch.poll ≠ []
  | .slWait _ => ∃ ch, s.chans[g]? = some ch ∧ ch.send ≠ []
  | .rlWait _ => ∃ ch, s.chans[g]? = some ch ∧ ch.recv ≠ []
  | .plWait _ _ => ∃ ch, s.chans[g]? = some ch ∧ ch.pollReply ≠ []
  | .rdWait _ _ | .duWait _ | .done => False
  | _ => True

/-- A goroutine that has what it waits for can go on. -/
theorem can_step {P : Params} {g : Nat} {s : Sys} (hr : TidyReach P s) (hR : Running g s)
    {i : Nat} {t : Thread} (ht : s.threads[i]? = some t) (hn : need g s t) :
    ∃ c s', (Act.run i c).quiet = true ∧ s.step P i t c = some s' := by
  have hcur := hR.cur hr
  obtain ⟨_, hconn⟩ := hR.conn' hr
  have now : ∀ {c s''}, (Act.run i c).quiet = true → s.step P i t c = some s'' →
      ∃ c s', (Act.run i c).quiet = true ∧ s.step P i t c = some s' := fun hq h => ⟨_, _, hq, h⟩
  have href := refs hr.reach _ (List.mem_of_getElem? ht)
  have htop := latest hr _ (List.mem_of_getElem? ht)
  cases t
  case rdWait | duWait | done => cases hn
  case prInit => exact now (c := .next) rfl (by simp only [Sys.step, me_eq]; rfl)
  case prTop | prGot | slTop | rlTop | rdGot | hPollTop | hReplyTop | plSendTop | plPollTop =>
    exact now (c := .next) rfl (by simp only [Sys.step, hcur]; rfl)
  case rdTop b => exact now (c := .next) rfl (by simp only [Sys.step, hconn]; rfl)
  case prWait g0 me =>
    cases hR.same htop
    obtain ⟨ch, h0, hq⟩ := hn
    cases hx : ch.poll with
    | nil => exact absurd hx hq
    | cons p q => exact now (c := .next) rfl (by simp only [Sys.step, h0, hx]; rfl)
  case slWait g0 =>
    cases hR.same htop
    obtain ⟨ch, h0, hq⟩ := hn
    cases hx : ch.send with
    | nil => exact absurd hx hq
    | cons p q => exact now (c := .next) rfl (by simp only [Sys.step, h0, hx]; rfl)
  case rlWait g0 =>
    cases hR.same htop
    obtain ⟨ch, h0, hq⟩ := hn
    cases hx : ch.recv with
    | nil => exact absurd hx hq
    | cons p q => exact now (c := .next) rfl (by simp only [Sys.step, h0, hx]; rfl)
  case plWait g0 k =>
    cases hR.same htop.1
    obtain ⟨ch, h0, hq⟩ := hn
    cases hx : ch.pollReply with
    | nil => exact absurd hx hq
    | cons p q => exact now (c := .next) rfl (by simp only [Sys.step, h0, hx]; rfl)
  case prSend g0 me =>
    cases hR.same htop
    obtain ⟨ch, hc0, hroom⟩ := hn
    exact now (c := .next) rfl (by simp only [Sys.step, Sys.comm, hc0, Chans.pushSend, if_pos hroom]; rfl)
  case slCheck p =>
    exact now (c := .next) rfl (by simp only [Sys.step, (hR.nothing_closed hr.reach).2.1]; rfl)
  case slWrite p => exact now (c := .fail) rfl rfl
  case rlInit => exact now (c := .next) rfl rfl
  case rlParse p =>
    obtain ⟨⟨q, e⟩, hu⟩ := unmarshal_total p.data
    match q, e with
    | some q, none => exact now (c := .next) rfl (by simp only [Sys.step, hu]; rfl)
    | none, e => exact now (c := .next) rfl (by simp only [Sys.step, hu]; rfl)
    | some q, some e => exact now (c := .next) rfl (by simp only [Sys.step, hu]; rfl)
  case rdCheck b res =>
    have hs := (hR.nothing_closed hr.reach).2.1
    match res with
    | none => exact now (c := .next) rfl (by simp only [Sys.step, hs]; rfl)
    | some (n, src) =>
      cases hi : ipEqual P.localIP src.ip with
      | true => exact now (c := .next) rfl (by simp only [Sys.step, hs, hi]; rfl)
      | false => exact now (c := .next) rfl (by simp only [Sys.step, hs, hi]; rfl)
  case rdPush g0 b p =>
    cases hR.same htop
    obtain ⟨ch, hc0, hroom⟩ := hn
    exact now (c := .next) rfl (by simp only [Sys.step, Sys.comm, hc0, Chans.pushRecv, if_pos hroom]; rfl)
  case hStart p =>
    have : ∃ s'', s.step P i (.hStart p) .next = some s'' := by
      simp only [Sys.step]
      repeat' split
      all_goals exact ⟨_, rfl⟩
    obtain ⟨s'', h⟩ := this
    exact now (c := .next) rfl h
  case hPoll g0 p =>
    cases hR.same htop
    obtain ⟨ch, hc0, hroom⟩ := hn
    exact now (c := .next) rfl (by simp only [Sys.step, Sys.comm, hc0, Chans.pushPoll, if_pos hroom]; rfl)
  case hReply g0 p =>
    cases hR.same htop
    obtain ⟨ch, hc0, hroom⟩ := hn
    exact now (c := .next) rfl (by simp only [Sys.step, Sys.comm, hc0, Chans.pushReply, if_pos hroom]; rfl)
  case plSend g0 =>
    cases hR.same htop
    obtain ⟨ch, hc0, hroom⟩ := hn
    exact now (c := .next) rfl (by simp only [Sys.step, Sys.comm, hc0, Chans.pushSend, if_pos hroom]; rfl)
  case plPoll g0 =>
    cases hR.same htop
    obtain ⟨ch, hc0, hroom⟩ := hn
    exact now (c := .next) rfl (by simp only [Sys.step, Sys.comm, hc0, Chans.pushPoll, if_pos hroom]; rfl)
  case plTop =>
    obtain ⟨k, hk⟩ := hR.ccur hr href
    exact now (c := .next) (s'' := s.goto i (.plWait g k)) rfl (by simp only [Sys.step, hcur, hk])
  case plGc =>
    have hl : s.lock = false := hn
    exact now (c := .clock fun _ => 0) rfl (by simp only [Sys.step, hl]; rfl)
  case plGot p =>
    have hl : s.lock = false := hn
    by_cases hi : ignored p = true
    · exact now (c := .at 0) rfl (by simp only [Sys.step, if_pos hi]; rfl)
    · exact now (c := .at 0) rfl (by simp only [Sys.step, if_neg hi, hl]; rfl)
  case duInit =>
    have : ∃ s'', s.step P i .duInit .next = some s'' := by
      simp only [Sys.step]
      split <;> exact ⟨_, rfl⟩
    obtain ⟨s'', h⟩ := this
    exact now (c := .next) rfl h
  case duTop =>
    obtain ⟨k, hk⟩ := hR.ccur hr href
    exact now (c := .next) rfl (by simp only [Sys.step, hk]; rfl)
  case duLock =>
    have hl : s.lock = false := hn
    exact now (c := .order s.ctrl.output.keys 0) rfl
      (by simp only [Sys.step, hl, List.isPerm_iff.mpr (List.Perm.refl _)]; rfl)
  case duTick pend rest now' =>
    match pend, rest with
    | [], [] => exact now (c := .next) rfl rfl
    | [], (a, r) :: rest => exact now (c := .next) rfl rfl
    | e :: pend, rest => exact now (c := .next) rfl (by simp only [Sys.step, hcur]; rfl)
  case duSend g0 e pend rest now' =>
    cases hR.same htop
    obtain ⟨ch, hc0, hroom⟩ := hn
    exact now (c := .next) rfl (by simp only [Sys.step, Sys.comm, hc0, Chans.pushSend, if_pos hroom]; rfl)
  case caller d a =>
    have hl : s.lock = false := hn
    exact now (c := .next) rfl (by simp only [Sys.step, hl]; rfl)

namespace Exec
variable {P : Params} (e : Exec P)

theorem reach (n : Nat) : TidyReach P (e.state n) := by
  induction n with
  | zero => exact e.first
  | succ n ih => exact ih.step (e.next n) (e.tidy n)

theorem alive (n : Nat) : (e.state n).crashed = none := (exec_Step (e.next n)).1

/-- The session does not change. -/
theorem running : ∃ g, ∀ n, Running g (e.state n) := by
  obtain ⟨g, hg⟩ := on_running e.first (e.session 0)
  refine ⟨g, fun n => ?_⟩
  induction n with
  | zero => exact hg
  | succ n ih =>
    have hns : e.act n ≠ .start := by
      intro ha
      obtain ⟨t, ht, hk⟩ := loops_alive (e.reach n) (e.alive n) ih 1 (.inl rfl)
      have := idle_kind (e.tidy n ha t ht)
      omega
    exact ⟨(e.session (n + 1)).1, (e.session (n + 1)).2, (exec_same (e.next n) hns).1.trans ih.top⟩

/-- A step of goroutine `i` at `t`. -/
theorem step_run {i : Nat} {t : Thread} {n : Nat} {c : Choice} (ht : (e.state n).threads[i]? = some t)
    (ha : e.act n = .run i c) : Run P (e.state n) i t c (e.state (n + 1)) := by
  have hx := e.next n
  rw [ha, exec_run (e.alive n) ht] at hx
  exact step_Run hx

/-- A goroutine that is given again and again what it waits for, as long as it stays where it is, does its step. -/
theorem advance (hf : e.Fair) {g : Nat} (hg : ∀ n, Running g (e.state n)) {i n : Nat} {t : Thread}
    (ht : (e.state n).threads[i]? = some t)
    (hw : (∀ m, n ≤ m → (e.state m).threads[i]? = some t) → ∀ m, n ≤ m → ∃ m', m ≤ m' ∧ need g (e.state m') t) :
    ∃ m, n ≤ m ∧ (∀ k, n ≤ k → k ≤ m → (e.state k).threads[i]? = some t) ∧ ∃ c, e.act m = .run i c := by
  -- it does not stay for ever
  have hns : ¬ ∀ m, n ≤ m → (e.state m).threads[i]? = some t := by
    intro hst
    have hrd : ∀ k, ∃ m, k ≤ m ∧ (e.state m).ready P i t := by
      intro k
      obtain ⟨m, hm, hn⟩ := hw hst (max n k) (Nat.le_max_left ..)
      have hnm : n ≤ m := Nat.le_trans (Nat.le_max_left ..) hm
      obtain ⟨c, s', hq, hs⟩ := can_step (e.reach m) (hg m) (hst m hnm) hn
      refine ⟨m, Nat.le_trans (Nat.le_max_right ..) hm, hst m hnm, ?_, c, s', hq, ?_⟩
      · rintro a b rfl; cases hn
      · rw [exec_run (e.alive m) (hst m hnm)]; exact hs
    obtain ⟨m, hm, ht', c, _, ha⟩ := hf i t hrd n
    exact run_ne ht' (e.step_run ht' ha) (e.alive (m + 1)) (hst (m + 1) (by omega))
  -- the first time at which it has gone
  have key : ∀ d, (∀ k, n ≤ k → k ≤ n + d → (e.state k).threads[i]? = some t) ∨
      ∃ m, n ≤ m ∧ (∀ k, n ≤ k → k ≤ m → (e.state k).threads[i]? = some t) ∧ ∃ c, e.act m = .run i c := by
    intro d
    induction d with
    | zero => exact .inl fun k h1 h2 => by cases Nat.le_antisymm h1 h2; exact ht
    | succ d ih =>
      rcases ih with ih | ih
      · by_cases ha : ∃ c, e.act (n + d) = .run i c
        · exact .inr ⟨n + d, by omega, ih, ha⟩
        · refine .inl fun k h1 h2 => ?_
          rcases Nat.lt_or_ge k (n + d + 1) with h | h
          · exact ih k h1 (by omega)
          · have : k = n + d + 1 := by omega
            subst this
            exact exec_other (e.next _) (ih _ (by omega) (Nat.le_refl _)) fun c hc => ha ⟨c, hc⟩
      · exact .inr ih
  refine Classical.byContradiction fun hno => hns fun m hm => ?_
  rcases key (m - n) with h | h
  · exact h m hm (by omega)
  · exact absurd h hno

/-- A goroutine that need not wait does its step. -/
theorem go (hf : e.Fair) {g : Nat} (hg : ∀ n, Running g (e.state n)) {i n : Nat} {t : Thread}
    (ht : (e.state n).threads[i]? = some t) (hw : ∀ m, n ≤ m → need g (e.state m) t) :
    ∃ m c, n ≤ m ∧ (e.state m).threads[i]? = some t ∧ Run P (e.state m) i t c (e.state (m + 1)) := by
  obtain ⟨m, hm, hk, c, ha⟩ := e.advance hf hg ht fun _ m hm => ⟨m, Nat.le_refl _, hw m hm⟩
  exact ⟨m, c, hm, hk m hm (Nat.le_refl _), e.step_run (hk m hm (Nat.le_refl _)) ha⟩

/-- Within a session the steps are those of goroutines, calls of SendDMXToAddress, and calls without effect. -/
theorem cases' (n : Nat) : (∃ i t c, (e.state n).threads[i]? = some t ∧ e.act n = .run i c ∧
      Run P (e.state n) i t c (e.state (n + 1))) ∨
    (∀ i c, e.act n ≠ .run i c) ∧ ∃ l, (∀ t ∈ l, ∃ d a, t = Thread.caller d a) ∧
      e.state (n + 1) = { e.state n with threads := (e.state n).threads ++ l } := by
  obtain ⟨g, hg⟩ := e.running
  have hx := e.next n
  have hcr := e.alive n
  have hlf := life (e.reach n).reach
  have same : e.state (n + 1) = e.state n → ∃ l, (∀ t ∈ l, ∃ d a, t = Thread.caller d a) ∧
      e.state (n + 1) = { e.state n with threads := (e.state n).threads ++ l } := by
    intro h
    exact ⟨[], nofun, by rw [h, List.append_nil]⟩
  cases ha : e.act n with
  | run i c =>
    cases ht : (e.state n).threads[i]? with
    | none =>
      rw [ha] at hx
      unfold Sys.exec at hx
      rw [hcr, if_neg (by simp)] at hx
      simp only [ht] at hx
      cases hx
    | some t => exact .inl ⟨i, t, c, ht, rfl, e.step_run ht ha⟩
  | start =>
    obtain ⟨t, ht, hk⟩ := loops_alive (e.reach n) hcr (hg n) 1 (.inl rfl)
    have := idle_kind (e.tidy n ha t ht)
    omega
  | listen ok =>
    rw [ha] at hx
    unfold Sys.exec at hx
    rw [hcr, if_neg (by simp)] at hx
    simp only at hx
    split at hx
    · cases hx
    · rename_i hc
      exact absurd (e.session n).2 ((Conc.alive (e.reach n) hcr).1 (by simpa using hc))
  | stop =>
    exfalso
    have h1 := (e.session (n + 1)).1
    have h2 := e.alive (n + 1)
    rw [ha] at hx
    unfold Sys.exec at hx
    rw [hcr, if_neg (by simp)] at hx
    simp only at hx
    split at hx
    · cases hx
    · split at hx <;> rw [← Option.some.inj hx] at h1 h2
      · cases h2
      · cases h1
  | stopStep =>
    exfalso
    rw [ha] at hx
    unfold Sys.exec at hx
    rw [hcr, if_neg (by simp)] at hx
    have hst : ¬ ((e.state n).control = .closing ∨ (e.state n).control = .disconnecting ∨ (e.state n).control = .ending) := by
      rw [← hlf.stopping, (e.session n).1]; nofun
    simp only at hx
    split at hx
    · rename_i h; exact hst (.inl h)
    · rename_i h; exact hst (.inr (.inl h))
    · rename_i h; exact hst (.inr (.inr h))
    · cases hx
  | register o h =>
    refine .inr ⟨nofun, same ?_⟩
    rw [ha] at hx
    unfold Sys.exec at hx
    rw [hcr, if_neg (by simp)] at hx
    simp only [((hg n).nothing_closed (e.reach n).reach).2.1] at hx
    split at hx
    · cases hx
    · exact (Option.some.inj hx).symm
  | deregister o =>
    refine .inr ⟨nofun, same ?_⟩
    rw [ha] at hx
    unfold Sys.exec at hx
    rw [hcr, if_neg (by simp)] at hx
    simp only [((hg n).nothing_closed (e.reach n).reach).2.1] at hx
    split at hx
    · cases hx
    · exact (Option.some.inj hx).symm
  | call d x =>
    refine .inr ⟨nofun, [.caller d x], fun t ht => ⟨d, x, List.mem_singleton.mp ht⟩, ?_⟩
    rw [ha] at hx
    unfold Sys.exec at hx
    rw [if_neg (by simp [hcr])] at hx
    simp only at hx
    split at hx
    · exact (Option.some.inj hx).symm
    · cases hx

end Exec

/-- How far a loop is from its select, or the update loop from its lock. -/
def rk : Thread → Nat
  | .prTop _ => 1 | .prInit | .prSend _ _ => 2 | .prGot _ => 3
  | .slTop => 1 | .slWrite _ => 2 | .slCheck _ => 3
  | .rlTop => 1 | .rlInit | .rlParse _ => 2
  | .plTop => 1 | .plGc | .plGot _ | .plPoll _ => 2 | .plPollTop => 3 | .plSend _ => 4 | .plSendTop => 5
  | .duTop => 1 | .duInit => 2
  | .duTick pend rest _ => 2 + 2 * pend.length + 4 * rest.length
  | .duSend _ _ pend rest _ => 3 + 2 * pend.length + 4 * rest.length
  | _ => 0

/-- A loop comes nearer to its select. -/
theorem run_rk {P : Params} {s s' : Sys} {i : Nat} {t : Thread} {c : Choice} (hs : s.shutdown = false)
    (ht : s.threads[i]? = some t) (h : Run P s i t c s') (hcr : s'.crashed = none) (h0 : 0 < rk t) :
    ∃ t', s'.threads[i]? = some t' ∧ kind t' = kind t ∧ rk t' < rk t := by
  have hlt := (List.getElem?_eq_some_iff.mp ht).1
  have set : ∀ {t' : Thread}, kind t' = kind t → rk t' < rk t → ∃ t2, (s.threads.set i t')[i]? = some t2 ∧
      kind t2 = kind t ∧ rk t2 < rk t := fun h1 h2 => ⟨_, List.getElem?_set_self hlt, h1, h2⟩
  have app : ∀ {t' : Thread} {l : List Thread}, kind t' = kind t → rk t' < rk t →
      ∃ t2, (s.threads.set i t' ++ l)[i]? = some t2 ∧ kind t2 = kind t ∧ rk t2 < rk t := fun h1 h2 =>
    ⟨_, by rw [List.getElem?_append_left (by simpa using hlt)]; exact List.getElem?_set_self hlt, h1, h2⟩
  cases h with
  | panic => cases hcr
  | move m _ =>
    cases m with
    | slStop h => rw [hs] at h; cases h
    | duSend => exact set rfl (by simp only [rk, List.length_cons]; omega)
    | _ => first | (exact absurd h0 (Nat.lt_irrefl _)) | exact set rfl (by simp [rk])
  | pushSend k _ _ => cases k <;> exact set rfl (by simp [rk])
  | spawnReader => exact app rfl (by simp [rk])
  | spawnHandler => exact app rfl (by simp [rk])
  | call _ hc => exact absurd h0 (Nat.lt_irrefl _)
  | tickAt =>
    refine set rfl ?_
    have := tickAt_few s.ctrl ‹_› ‹_› ‹_›
    simp only [rk, List.length_cons, List.length_nil]
    omega
  | unlock => exact set rfl (by simp [rk])
  | pushDmx => exact set rfl (by simp [rk])
  | _ => first | (exact absurd h0 (Nat.lt_irrefl _)) | exact set rfl (by simp [rk])

/-- The update loop releases nodeLock or comes nearer to it. -/
theorem run_hold {P : Params} {s s' : Sys} {i : Nat} {t : Thread} {c : Choice}
    (ht : s.threads[i]? = some t) (h : Run P s i t c s') (hcr : s'.crashed = none) (h0 : (holder t).isSome = true) :
    s'.lock = false ∨ ∃ t', s'.threads[i]? = some t' ∧ (holder t').isSome = true ∧ rk t' < rk t := by
  have hlt := (List.getElem?_eq_some_iff.mp ht).1
  have set : ∀ {t' : Thread}, (holder t').isSome = true → rk t' < rk t → s'.lock = false ∨
      ∃ t2, (s.threads.set i t')[i]? = some t2 ∧ (holder t2).isSome = true ∧ rk t2 < rk t :=
    fun h1 h2 => .inr ⟨_, List.getElem?_set_self hlt, h1, h2⟩
  cases t <;> first | (cases h0; done) | skip
  case duTick pend rest now =>
    cases h with
    | panic => cases hcr
    | move m _ => cases m; exact set rfl (by simp only [rk, List.length_cons]; omega)
    | pushSend k _ _ => cases k
    | unlock => exact .inl rfl
    | tickAt =>
      refine set rfl ?_
      have := tickAt_few s.ctrl ‹_› ‹_› ‹_›
      simp only [rk, List.length_cons, List.length_nil]
      omega
  case duSend g e pend rest now =>
    cases h with
    | panic => cases hcr
    | move m _ => cases m
    | pushSend k _ _ => cases k
    | pushDmx => exact set rfl (by simp [rk])

namespace Exec
variable {P : Params} (e : Exec P)

/-- A loop keeps its kind. -/
theorem keeps {g : Nat} (hg : ∀ n, Running g (e.state n)) {j n : Nat} {t : Thread}
    (ht : (e.state n).threads[j]? = some t) (hk : Loop P (kind t)) {m : Nat} (hm : n ≤ m) :
    ∃ t', (e.state m).threads[j]? = some t' ∧ kind t' = kind t := by
  obtain ⟨d, rfl⟩ := Nat.le.dest hm
  clear hm
  induction d with
  | zero => exact ⟨t, ht, rfl⟩
  | succ d ih =>
    obtain ⟨t1, h1, hk1⟩ := ih
    by_cases ha : ∃ c, e.act (n + d) = .run j c
    · obtain ⟨c, ha⟩ := ha
      rcases run_kind (e.reach _) (hg _) h1 (by rw [hk1]; exact hk) (e.step_run h1 ha) with h | ⟨t', l, h, hk'⟩
      · exact absurd (e.alive _) h
      · refine ⟨t', ?_, hk'.trans hk1⟩
        have hlt := (List.getElem?_eq_some_iff.mp h1).1
        rw [show n + (d + 1) = n + d + 1 from rfl, h, List.getElem?_append_left (by simpa using hlt)]
        exact List.getElem?_set_self hlt
    · exact ⟨t1, exec_other (e.next _) h1 fun c hc => ha ⟨c, hc⟩, hk1⟩

/-- A loop that gets what it needs returns to its select. -/
theorem visit (hf : e.Fair) {g : Nat} (hg : ∀ n, Running g (e.state n)) {κ : Nat}
    (hw : ∀ t, kind t = κ → 0 < rk t → ∀ m, ∃ m', m ≤ m' ∧ need g (e.state m') t)
    {j : Nat} : ∀ (r : Nat) {n : Nat} {t : Thread}, rk t ≤ r → (e.state n).threads[j]? = some t → kind t = κ →
    ∃ m t', n ≤ m ∧ (e.state m).threads[j]? = some t' ∧ kind t' = κ ∧ rk t' = 0 := by
  intro r
  induction r with
  | zero => intro n t h1 h2 h3; exact ⟨n, t, Nat.le_refl _, h2, h3, Nat.le_zero.mp h1⟩
  | succ r ih =>
    intro n t h1 h2 h3
    by_cases h0 : rk t = 0
    · exact ⟨n, t, Nat.le_refl _, h2, h3, h0⟩
    · have h0 : 0 < rk t := by omega
      obtain ⟨m, hm, hk, c, ha⟩ := e.advance hf hg h2 fun _ m _ => hw t h3 h0 m
      have hm' := hk m hm (Nat.le_refl _)
      obtain ⟨t', a1, a2, a3⟩ := run_rk ((hg m).nothing_closed (e.reach m).reach).2.1 hm' (e.step_run hm' ha)
        (e.alive _) h0
      obtain ⟨m', t2, b1, b2⟩ := ih (t := t') (by omega) a1 (a2.trans h3)
      exact ⟨m', t2, by omega, b2⟩

end Exec

/-- A queue of the session. -/
def Sys.queue (g : Nat) (f : Chans → List α) (s : Sys) : List α := ((s.chans[g]?).map f).getD []

theorem queue_eq {g : Nat} {f : Chans → List α} {s : Sys} {ch : Chans} (h : s.chans[g]? = some ch) :
    s.queue g f = f ch := by simp [Sys.queue, h]

theorem queue_set {g : Nat} {f : Chans → List α} {s s' : Sys} {k : Nat} {ch ch' : Chans} (hk : s.chans[k]? = some ch)
    (h : s'.chans = s.chans.set k ch') (he : k = g → f ch' = f ch) : s'.queue g f = s.queue g f := by
  by_cases hkg : k = g
  · subst hkg
    have hlt := (List.getElem?_eq_some_iff.mp hk).1
    simp only [Sys.queue, h, List.getElem?_set_self hlt, hk]
    simp [he rfl]
  · simp only [Sys.queue, h, List.getElem?_set_ne hkg]

theorem queue_set_self {g : Nat} {f : Chans → List α} {s s' : Sys} {ch ch' : Chans} (hk : s.chans[g]? = some ch)
    (h : s'.chans = s.chans.set g ch') : s'.queue g f = f ch' := by
  have hlt := (List.getElem?_eq_some_iff.mp hk).1
  simp [Sys.queue, h, List.getElem?_set_self hlt]

/-- One step of a queue: nothing, an addition at the end, or the removal of the head, which a goroutine then has. -/
def Turn (q q' : List α) (ths : List Thread) (have' : α → Thread → Prop) : Prop :=
  (∃ l, q' = q ++ l) ∨ ∃ x t, q = x :: q' ∧ t ∈ ths ∧ have' x t

theorem Turn.same {q q' : List α} {ths have'} (h : q' = q) : Turn q q' ths have' := .inl ⟨[], by simp [h]⟩

def hasRecv (p : Payload) (t : Thread) : Prop := t = .rlParse p
def hasSend (p : Payload) (t : Thread) : Prop := t = .slCheck p
def hasPoll (_ : ArtPoll) (t : Thread) : Prop := ∃ me, t = .prGot me
def hasReply (p : ArtPollReply) (t : Thread) : Prop := t = .plGot p

structure Turns (g : Nat) (s s' : Sys) : Prop where
  recv : Turn (s.queue g Chans.recv) (s'.queue g Chans.recv) s'.threads hasRecv
  send : Turn (s.queue g Chans.send) (s'.queue g Chans.send) s'.threads hasSend
  poll : Turn (s.queue g Chans.poll) (s'.queue g Chans.poll) s'.threads hasPoll
  reply : Turn (s.queue g Chans.pollReply) (s'.queue g Chans.pollReply) s'.threads hasReply

theorem Turns.same {g : Nat} {s s' : Sys} (h : s'.chans = s.chans) : Turns g s s' := by
  constructor <;> (refine .same ?_; simp only [Sys.queue, h])

theorem Turns.set {g k : Nat} {s s' : Sys} {ch ch' : Chans} (hk : s.chans[k]? = some ch)
    (h : s'.chans = s.chans.set k ch')
    (h1 : Turn ch.recv ch'.recv s'.threads hasRecv)
    (h2 : Turn ch.send ch'.send s'.threads hasSend)
    (h3 : Turn ch.poll ch'.poll s'.threads hasPoll)
    (h4 : Turn ch.pollReply ch'.pollReply s'.threads hasReply) : Turns g s s' := by
  by_cases hkg : k = g
  · subst hkg
    constructor <;> (rw [queue_eq hk, queue_set_self hk h]; assumption)
  · constructor <;> exact .same (queue_set hk h fun h => absurd h hkg)

theorem run_turns {P : Params} {s s' : Sys} {i : Nat} {t : Thread} {c : Choice} (g : Nat)
    (ht : s.threads[i]? = some t) (h : Run P s i t c s') : Turns g s s' := by
  have hlt := (List.getElem?_eq_some_iff.mp ht).1
  have mem : ∀ {t' : Thread}, t' ∈ s.threads.set i t' := fun {t'} =>
    List.mem_of_getElem? (List.getElem?_set_self hlt)
  cases h with
  | popPoll hg hq => exact .set hg rfl (.same rfl) (.same rfl) (.inr ⟨_, _, hq, mem, _, rfl⟩) (.same rfl)
  | popSend hg hq => exact .set hg rfl (.same rfl) (.inr ⟨_, _, hq, mem, rfl⟩) (.same rfl) (.same rfl)
  | popRecv hg hq => exact .set hg rfl (.inr ⟨_, _, hq, mem, rfl⟩) (.same rfl) (.same rfl) (.same rfl)
  | popReply hg hq => exact .set hg rfl (.same rfl) (.same rfl) (.same rfl) (.inr ⟨_, _, hq, mem, rfl⟩)
  | pushSend k hg _ => exact .set hg rfl (.same rfl) (.inl ⟨_, rfl⟩) (.same rfl) (.same rfl)
  | pushDmx hg _ => exact .set hg rfl (.same rfl) (.inl ⟨_, rfl⟩) (.same rfl) (.same rfl)
  | pushRecv hg _ => exact .set hg rfl (.inl ⟨_, rfl⟩) (.same rfl) (.same rfl) (.same rfl)
  | pushPoll hg _ => exact .set hg rfl (.same rfl) (.same rfl) (.inl ⟨_, rfl⟩) (.same rfl)
  | pushOwn hg _ => exact .set hg rfl (.same rfl) (.same rfl) (.inl ⟨_, rfl⟩) (.same rfl)
  | pushReply hg _ => exact .set hg rfl (.same rfl) (.same rfl) (.same rfl) (.inl ⟨_, rfl⟩)
  | _ => exact .same rfl

namespace Exec
variable {P : Params} (e : Exec P)

theorem turns (g n : Nat) : Turns g (e.state n) (e.state (n + 1)) := by
  rcases e.cases' n with ⟨i, t, c, ht, _, h⟩ | ⟨_, l, _, h⟩
  · exact run_turns g ht h
  · exact .same (by rw [h])

/-- The head of a queue is taken, if the loop that takes from it comes to its select again and again. -/
theorem pops {α : Type} {q : Sys → List α} {have' : α → Thread → Prop} (hf : e.Fair) {j : Nat} {t0 : Thread}
    (hturn : ∀ n, Turn (q (e.state n)) (q (e.state (n + 1))) (e.state (n + 1)).threads have')
    (hready : ∀ n, (e.state n).threads[j]? = some t0 → q (e.state n) ≠ [] → (e.state n).ready P j t0)
    (hgo : ∀ n, e.goes j t0 n → ∃ x, q (e.state n) = x :: q (e.state (n + 1)))
    (hvisit : ∀ n, ∃ m, n ≤ m ∧ (e.state m).threads[j]? = some t0)
    {n : Nat} {x : α} {l : List α} (hq : q (e.state n) = x :: l) :
    ∃ m l' t, n ≤ m ∧ q (e.state m) = x :: l ++ l' ∧ q (e.state (m + 1)) = l ++ l' ∧
      t ∈ (e.state (m + 1)).threads ∧ have' x t := by
  refine Classical.byContradiction fun hno => ?_
  have stay : ∀ d, ∃ l', q (e.state (n + d)) = x :: l ++ l' := by
    intro d
    induction d with
    | zero => exact ⟨[], by simpa using hq⟩
    | succ d ih =>
      obtain ⟨l', hl'⟩ := ih
      rcases hturn (n + d) with ⟨l2, h2⟩ | ⟨y, t, h2, h3, h4⟩
      · exact ⟨l' ++ l2, by rw [show n + (d + 1) = n + d + 1 from rfl, h2, hl']; simp⟩
      · rw [hl'] at h2
        obtain ⟨rfl, h5⟩ := List.cons.inj h2
        exact absurd ⟨n + d, l', t, by omega, hl', h5.symm, h3, h4⟩ hno
  have stay' : ∀ m, n ≤ m → ∃ l', q (e.state m) = x :: l ++ l' := by
    intro m hm
    obtain ⟨d, rfl⟩ := Nat.le.dest hm
    exact stay d
  obtain ⟨m, hm, hg⟩ := hf j t0 (fun k => by
    obtain ⟨m, hm, ht⟩ := hvisit (max n k)
    obtain ⟨l', hl'⟩ := stay' m (Nat.le_trans (Nat.le_max_left ..) hm)
    exact ⟨m, Nat.le_trans (Nat.le_max_right ..) hm, hready m ht (by rw [hl']; nofun)⟩) n
  obtain ⟨y, hy⟩ := hgo m hg
  obtain ⟨l1, h1⟩ := stay' m hm
  obtain ⟨l2, h2⟩ := stay' (m + 1) (by omega)
  rcases hturn m with ⟨l3, h3⟩ | ⟨z, t, h3, h4, h5⟩
  · rw [h3] at hy
    have := congrArg List.length hy
    simp at this
    omega
  · rw [h1] at h3
    obtain ⟨rfl, h6⟩ := List.cons.inj h3
    exact hno ⟨m, l1, t, hm, h1, h6.symm, h4, h5⟩

end Exec
end Verif.Conc
