import Verif.Lemmas.ConcFrame
import Verif.Lemmas.ConcRun
import Verif.Lemmas.ConcLin
import Verif.Lemmas.ConcLife
/-
What is left to do after Stop: a measure that every step of a goroutine decreases, the number of items in
flight, and which steps are possible.
-/
namespace Verif.Conc
open Packet Code Artnet Spec

theorem tickAt_few (c : Ctrl) (a : Address) (r : Ref) (now : Int) : (c.tickAt a r now).2.length ≤ 1 := by
  rw [tickAt_eq]; split <;> simp

/-- How many steps a goroutine still does at most, not counting waits. -/
def work : Thread → Nat
  | .prInit => 3 | .prTop _ => 2 | .prWait _ _ => 1 | .prGot _ => 5 | .prSend _ _ => 4
  | .slTop => 3 | .slWait _ => 2 | .slCheck _ => 2 | .slWrite _ => 4
  | .rlInit => 6 | .rlTop => 2 | .rlWait _ => 1 | .rlParse _ => 11
  | .rdTop _ => 3 | .rdWait _ _ => 2 | .rdCheck _ _ => 1 | .rdGot _ _ => 16 | .rdPush _ _ _ => 15
  | .hStart _ => 8 | .hPollTop _ => 7 | .hPoll _ _ => 6 | .hReplyTop _ => 5 | .hReply _ _ => 4
  | .plSendTop => 12 | .plSend _ => 11 | .plPollTop => 9 | .plPoll _ => 8 | .plTop => 2 | .plWait _ _ => 1
  | .plGc => 3 | .plGot _ => 3
  | .duInit => 3 | .duTop => 2 | .duWait _ => 1 | .duLock => 0
  | .duTick pend rest _ => 3 + 3 * pend.length + 4 * rest.length
  | .duSend _ _ pend rest _ => 5 + 3 * pend.length + 4 * rest.length
  | .caller _ _ => 1
  | .done => 0

/-- How many steps the contents of the queues still cause. -/
def workC (c : Chans) : Nat := 5 * c.poll.length + c.send.length + 11 * c.recv.length + 3 * c.pollReply.length

def Sys.work (s : Sys) : Nat := total Conc.work s.threads + total workC s.chans

theorem work_goto {s s1 : Sys} {i : Nat} {t t'} (ht : s.threads[i]? = some t) (h1 : s1.threads = s.threads)
    (h2 : s1.chans = s.chans) (hw : Conc.work t' < Conc.work t) (hf : flight t' ≤ flight t) :
    (s1.goto i t').work < s.work ∧ (s1.goto i t').inFlight ≤ s.inFlight := by
  have a1 := total_set Conc.work ht t'
  have a2 := total_set flight ht t'
  simp only [Sys.work, Sys.inFlight, Sys.goto, h1, h2]
  simp only [total] at *
  omega

theorem work_ch {s s1 : Sys} {i g : Nat} {t t' ch ch'} (ht : s.threads[i]? = some t)
    (hg : s.chans[g]? = some ch) (h1 : s1.threads = s.threads)
    (h2 : s1.chans = s.chans.set g ch') (hw : Conc.work t' + workC ch' < Conc.work t + workC ch)
    (hf : flight t' + ch'.items ≤ flight t + ch.items) :
    (s1.goto i t').work < s.work ∧ (s1.goto i t').inFlight ≤ s.inFlight := by
  have a1 := total_set Conc.work ht t'
  have a2 := total_set flight ht t'
  have b1 := total_set workC hg ch'
  have b2 := total_set Chans.items hg ch'
  simp only [Sys.work, Sys.inFlight, Sys.goto, h1, h2]
  simp only [total] at *
  omega

theorem work_spawn {s : Sys} {i : Nat} {t t' u} (ht : s.threads[i]? = some t)
    (hw : Conc.work t' + Conc.work u < Conc.work t) (hf : flight t' + flight u ≤ flight t) :
    ({ s.goto i t' with threads := (s.goto i t').threads ++ [u] } : Sys).work < s.work ∧
    ({ s.goto i t' with threads := (s.goto i t').threads ++ [u] } : Sys).inFlight ≤ s.inFlight := by
  have a1 := total_set Conc.work ht t'
  have a2 := total_set flight ht t'
  simp only [Sys.work, Sys.inFlight, Sys.goto, List.map_append, List.sum_append, total_append,
    total_cons, total_nil]
  simp only [total, List.map_cons, List.map_nil, List.sum_cons, List.sum_nil] at *
  omega

/-- After Stop, every step of a goroutine that is not a tick is progress. -/
theorem step_work {P : Params} {s s' : Sys} {i : Nat} {t : Thread} {c : Choice} (hsh : s.shutdown = true)
    (ht : s.threads[i]? = some t) (hlk : t ≠ .duLock) (hc : c ≠ .tick) (hc' : c ≠ .gcTick)
    (h : s.step P i t c = some s') (hn : s'.crashed = none) :
    s'.work < s.work ∧ s'.inFlight ≤ s.inFlight := by
  cases step_Run h with
  | panic => cases hn
  | move m hq =>
    refine work_goto ht rfl rfl ?_ ?_ <;> cases m <;>
      first
      | exact absurd rfl (hq hc hc').1
      | exact absurd rfl (hq hc hc').2.1
      | exact absurd rfl (hq hc hc').2.2
      | (simp only [Conc.work, flight, List.length_cons]; omega)
      | (rename_i hx; rw [hsh] at hx; cases hx)
      | (rename_i hx _; rw [hsh] at hx; cases hx)
  | popPoll hg hq =>
    refine work_ch ht hg rfl rfl ?_ ?_ <;>
      simp only [Conc.work, flight, workC, Chans.items, hq, List.length_cons] <;> omega
  | popSend hg hq =>
    refine work_ch ht hg rfl rfl ?_ ?_ <;>
      simp only [Conc.work, flight, workC, Chans.items, hq, List.length_cons] <;> omega
  | popRecv hg hq =>
    refine work_ch ht hg rfl rfl ?_ ?_ <;>
      simp only [Conc.work, flight, workC, Chans.items, hq, List.length_cons] <;> omega
  | popReply hg hq =>
    refine work_ch ht hg rfl rfl ?_ ?_ <;>
      simp only [Conc.work, flight, workC, Chans.items, hq, List.length_cons] <;> omega
  | pushSend k hg hl =>
    refine work_ch ht hg rfl rfl ?_ ?_ <;> cases k <;>
      simp only [Conc.work, flight, workC, Chans.items, List.length_append, List.length_cons, List.length_nil] <;>
      omega
  | pushDmx hg hl =>
    refine work_ch ht hg rfl rfl ?_ ?_ <;>
      simp only [Conc.work, flight, workC, Chans.items, List.length_append, List.length_cons, List.length_nil] <;>
      omega
  | pushRecv hg hl =>
    refine work_ch ht hg rfl rfl ?_ ?_ <;>
      simp only [Conc.work, flight, workC, Chans.items, List.length_append, List.length_cons, List.length_nil] <;>
      omega
  | pushPoll hg hl =>
    refine work_ch ht hg rfl rfl ?_ ?_ <;>
      simp only [Conc.work, flight, workC, Chans.items, List.length_append, List.length_cons, List.length_nil] <;>
      omega
  | pushOwn hg hl =>
    refine work_ch ht hg rfl rfl ?_ ?_ <;>
      simp only [Conc.work, flight, workC, Chans.items, List.length_append, List.length_cons, List.length_nil] <;>
      omega
  | pushReply hg hl =>
    refine work_ch ht hg rfl rfl ?_ ?_ <;>
      simp only [Conc.work, flight, workC, Chans.items, List.length_append, List.length_cons, List.length_nil] <;>
      omega
  | write _ _ => exact work_goto ht rfl rfl (by simp [Conc.work]) (by simp [flight])
  | spawnReader => exact work_spawn ht (by simp [Conc.work]) (by simp [flight])
  | spawnHandler _ => exact work_spawn ht (by simp [Conc.work]) (by simp [flight])
  | reject _ _ => exact work_goto ht rfl rfl (by simp [Conc.work]) (by simp [flight])
  | arrive _ => exact work_goto ht rfl rfl (by simp [Conc.work]) (by simp [flight])
  | lose _ => exact work_goto ht rfl rfl (by simp [Conc.work]) (by simp [flight])
  | accept hx _ => rw [hsh] at hx; cases hx
  | drop _ => exact work_goto ht rfl rfl (by simp [Conc.work]) (by simp [flight])
  | call _ hcl => refine work_goto ht rfl rfl ?_ ?_ <;> cases hcl <;> simp [Conc.work, flight]
  | gc _ => exact work_goto ht rfl rfl (by simp [Conc.work]) (by simp [flight])
  | ignore _ => exact work_goto ht rfl rfl (by simp [Conc.work]) (by simp [flight])
  | reply _ _ => exact work_goto ht rfl rfl (by simp [Conc.work]) (by simp [flight])
  | lock _ _ => exact absurd rfl hlk
  | unlock => exact work_goto ht rfl rfl (by simp [Conc.work]) (by simp [flight])
  | tickAt =>
    have := tickAt_few s.ctrl
    refine work_goto ht rfl rfl ?_ ?_ <;>
      simp only [Conc.work, flight, List.length_cons, List.length_nil] <;> rename_i a r _ now <;>
      have := this a r now <;> omega
  | sendDMX _ => exact work_goto ht rfl rfl (by simp [Conc.work]) (by simp [flight])

/-- The channels a goroutine refers to exist, and only a controller has the loops of a controller. -/
def refOK (P : Params) (n k : Nat) : Thread → Prop
  | .prWait g _ | .prSend g _ | .slWait g | .rlWait g | .rdPush g _ _ | .hPoll g _ | .hReply g _ => g < n
  | .plSend g | .plPoll g | .duSend g _ _ _ _ => g < n ∧ P.controller = true
  | .plWait g j => g < n ∧ j < k ∧ P.controller = true
  | .duWait j => j < k ∧ P.controller = true
  | .plSendTop | .plPollTop | .plTop | .plGc | .plGot _ | .duInit | .duTop | .duLock | .duTick _ _ _ =>
    P.controller = true
  | _ => True

theorem refOK.mono {P : Params} {n k n' k' : Nat} {t : Thread} (h : refOK P n k t) (hn : n ≤ n') (hk : k ≤ k') :
    refOK P n' k' t := by
  cases t <;> simp only [refOK] at h ⊢ <;> first | trivial | exact h | omega | skip
  all_goals (first | exact ⟨by omega, h.2⟩ | exact ⟨by omega, by omega, h.2.2⟩)

theorem refs {P : Params} {s : Sys} (h : Reach P s) :
    ∀ t ∈ s.threads, refOK P s.chans.length s.cdown.length t := by
  refine Reach.induct (P := P) (I := fun s => ∀ t ∈ s.threads, refOK P s.chans.length s.cdown.length t) ?_ ?_ h
  · intro t ht; cases ht
  intro s s' hr ih _ hst
  have hl := life hr
  have hcur : ∀ {g}, s.cur = some g → g < s.chans.length := fun hg => lastIdx_lt (hl.cur ▸ hg)
  have hccur : ∀ {k}, s.ccur = some k → k < s.cdown.length := fun hg => lastIdx_lt (hl.ccur ▸ hg)
  have at' : ∀ {i : Nat} {t}, s.threads[i]? = some t → refOK P s.chans.length s.cdown.length t :=
    fun ht => ih _ (List.mem_of_getElem? ht)
  have upd : ∀ {i : Nat} {t'}, refOK P s.chans.length s.cdown.length t' →
      ∀ u ∈ s.threads.set i t', refOK P s.chans.length s.cdown.length u := by
    intro i t' h' u hu
    rcases List.mem_or_eq_of_mem_set hu with hu | rfl
    · exact ih u hu
    · exact h'
  have updc : ∀ {i g : Nat} {ch t'}, refOK P s.chans.length s.cdown.length t' →
      ∀ u ∈ s.threads.set i t', refOK P (s.chans.set g ch).length s.cdown.length u := by
    intro i g ch t' h'; rw [List.length_set]; exact upd h'
  cases hst with
  | panic _ => exact ih
  | move ht m =>
    have h0 := at' ht
    refine upd ?_
    cases m <;> simp only [refOK] at h0 ⊢ <;>
      first | trivial | exact h0 | exact hcur ‹_› | exact ⟨hcur ‹_›, h0⟩ | exact ⟨hccur ‹_›, h0⟩ |
        exact h0.2.2 | exact h0.2 | skip
    rename_i hg hk
    exact ⟨hcur hg, hccur hk, h0⟩
  | popPoll ht hg hq => exact updc trivial
  | popSend ht hg hq => exact updc trivial
  | popRecv ht hg hq => exact updc trivial
  | popReply ht hg hq => have h0 := at' ht; exact updc h0.2.2
  | pushSend ht k hg hl =>
    have h0 := at' ht
    refine updc ?_
    cases k <;> simp only [refOK] at h0 ⊢
    exact h0.2
  | pushDmx ht hg hl => have h0 := at' ht; exact updc h0.2
  | pushRecv ht hg hl => exact updc trivial
  | pushPoll ht hg hl => exact updc trivial
  | pushOwn ht hg hl => have h0 := at' ht; exact updc h0.2
  | pushReply ht hg hl => exact updc trivial
  | write ht _ _ => exact upd trivial
  | spawnReader ht =>
    intro u hu
    rcases List.mem_append.mp hu with hu | hu
    · exact upd (t' := .rlTop) trivial u hu
    · cases List.mem_singleton.mp hu; trivial
  | spawnHandler ht hu =>
    intro u hu
    rcases List.mem_append.mp hu with hu | hu
    · exact upd (t' := .rlTop) trivial u hu
    · cases List.mem_singleton.mp hu; trivial
  | reject ht _ _ => exact upd trivial
  | arrive ht _ => exact upd trivial
  | lose ht _ => exact upd trivial
  | accept ht _ _ => exact upd trivial
  | drop ht _ => exact upd trivial
  | call ht _ hc => refine upd ?_; cases hc <;> trivial
  | gc ht _ => have h0 := at' ht; exact upd h0
  | ignore ht _ => have h0 := at' ht; exact upd h0
  | reply ht _ _ => have h0 := at' ht; exact upd h0
  | lock ht _ _ => have h0 := at' ht; exact upd h0
  | unlock ht => have h0 := at' ht; exact upd h0
  | tickAt ht => have h0 := at' ht; exact upd h0
  | sendDMX ht _ => exact upd trivial
  | startPanic _ _ =>
    simp only [Sys.reset, Sys.panic, Sys.resetTables]
    split
    · exact fun t ht => (ih t ht).mono (Nat.le_refl _) (by simp)
    · exact ih
  | startFail _ _ =>
    simp only [Sys.reset, Sys.resetTables]
    split
    · exact fun t ht => (ih t ht).mono (Nat.le_refl _) (by simp)
    · exact ih
  | start _ _ =>
    simp only [Sys.reset, Sys.makeChannels, Sys.resetTables]
    split
    · exact fun t ht => (ih t ht).mono (by simp) (by simp)
    · exact fun t ht => (ih t ht).mono (by simp) (Nat.le_refl _)
  | listen hc =>
    intro u hu
    rcases List.mem_append.mp hu with hu | hu
    · exact ih u hu
    · simp only [Params.goroutines] at hu
      split at hu <;> simp at hu
      · rename_i hp
        rcases hu with rfl | rfl | rfl | rfl | rfl <;> first | trivial | exact hp
      · rcases hu with rfl | rfl | rfl <;> trivial
  | listenFail _ => exact ih
  | stop _ _ => exact ih
  | close hc _ hg _ => intro t ht; show refOK P (s.chans.set _ _).length _ t; rw [List.length_set]; exact ih t ht
  | disconnectC _ _ => exact ih
  | disconnect _ _ => exact ih
  | ended _ _ _ => intro t ht; show refOK P _ (s.cdown.set _ _).length t; rw [List.length_set]; exact ih t ht
  | register _ _ => exact ih
  | deregister _ _ => exact ih
  | noRegister _ _ => exact ih
  | spawnCaller _ =>
    intro u hu
    rcases List.mem_append.mp hu with hu | hu
    · exact ih u hu
    · cases List.mem_singleton.mp hu; trivial

/-- A goroutine waits for room in a queue. -/
def Thread.sending : Thread → Option Nat
  | .prSend g _ | .rdPush g _ _ | .hPoll g _ | .hReply g _ | .plSend g | .plPoll g | .duSend g _ _ _ _ => some g
  | _ => none

/-- A goroutine is about to take the lock. -/
def Thread.locking : Thread → Bool
  | .plGc | .plGot _ | .duLock | .caller _ _ => true
  | _ => false

/-- The channel whose closing ends the select of a goroutine is closed. -/
def closedFor (s : Sys) : Thread → Prop
  | .prWait g _ | .slWait g | .rlWait g => ∃ ch, s.chans[g]? = some ch ∧ ch.down = true
  | .plWait _ k | .duWait k => s.cdown[k]? = some true
  | _ => True

theorem closedFor_all {P : Params} {s : Sys} (h : Reach P s) (hdown : ∀ ch ∈ s.chans, ch.down = true)
    (hcd : ∀ d ∈ s.cdown, d = true) : ∀ t ∈ s.threads, closedFor s t := by
  intro t ht
  have href := refs h t ht
  have hget : ∀ g, g < s.chans.length → ∃ ch, s.chans[g]? = some ch ∧ ch.down = true := fun g hg =>
    ⟨_, List.getElem?_eq_getElem hg, hdown _ (List.getElem_mem hg)⟩
  have hcget : ∀ k, k < s.cdown.length → s.cdown[k]? = some true := fun k hk => by
    rw [List.getElem?_eq_getElem hk, hcd _ (List.getElem_mem hk)]
  cases t <;> first | trivial | exact hget _ href | exact hcget _ href.1 | exact hcget _ href.2.1

/-- With everything closed, a goroutine that has not returned can go on, unless it needs room or the lock. -/
theorem can_go {P : Params} {s : Sys} (h : Reach P s) (hp : s.phase = .stopped)
    {i : Nat} {t : Thread} (hcl : closedFor s t) (ht : s.threads[i]? = some t) (hd : t ≠ .done) :
    (∃ c s', c ≠ .tick ∧ c ≠ .gcTick ∧ s.step P i t c = some s') ∨
    (∃ g ch, t.sending = some g ∧ s.chans[g]? = some ch ∧ capacity < flight t + ch.items) ∨
    (t.locking = true ∧ (s.lock = true ∨ t = .duLock)) := by
  have hl := life h
  have href := refs h t (List.mem_of_getElem? ht)
  have hsh : s.shutdown = true := hl.shut.mpr (by rw [hp]; nofun)
  obtain ⟨ch0, hch0, _⟩ := hl.closed (.inr (.inr hp))
  have hcur : ∃ g, s.cur = some g := by
    rw [hl.cur, lastIdx, if_neg]
    · exact ⟨_, rfl⟩
    · intro h0; rw [List.length_eq_zero_iff.mp h0] at hch0; cases hch0
  obtain ⟨g0, hg0⟩ := hcur
  have hccur : P.controller = true → ∃ k, s.ccur = some k := by
    intro hc
    have := hl.cclosed hc hp
    rw [hl.ccur, lastIdx, if_neg]
    · exact ⟨_, rfl⟩
    · intro h0; rw [List.length_eq_zero_iff.mp h0] at this; cases this
  have hget : ∀ g, g < s.chans.length → ∃ ch, s.chans[g]? = some ch := fun g hg =>
    ⟨_, List.getElem?_eq_getElem hg⟩
  cases t
  case done => exact absurd rfl hd
  case prInit => exact .inl ⟨.next, _, nofun, nofun, by simp only [Sys.step, me_eq]; rfl⟩
  case prTop me => exact .inl ⟨.next, _, nofun, nofun, by simp only [Sys.step, hg0]; rfl⟩
  case prGot me => exact .inl ⟨.next, _, nofun, nofun, by simp only [Sys.step, hg0]; rfl⟩
  case slTop => exact .inl ⟨.next, _, nofun, nofun, by simp only [Sys.step, hg0]; rfl⟩
  case rlTop => exact .inl ⟨.next, _, nofun, nofun, by simp only [Sys.step, hg0]; rfl⟩
  case rdGot b p => exact .inl ⟨.next, _, nofun, nofun, by simp only [Sys.step, hg0]; rfl⟩
  case hPollTop p => exact .inl ⟨.next, _, nofun, nofun, by simp only [Sys.step, hg0]; rfl⟩
  case hReplyTop p => exact .inl ⟨.next, _, nofun, nofun, by simp only [Sys.step, hg0]; rfl⟩
  case plSendTop => exact .inl ⟨.next, _, nofun, nofun, by simp only [Sys.step, hg0]; rfl⟩
  case plPollTop => exact .inl ⟨.next, _, nofun, nofun, by simp only [Sys.step, hg0]; rfl⟩
  case prWait g me =>
    obtain ⟨ch, hg, hd⟩ := hcl
    exact .inl ⟨.down, _, nofun, nofun, by simp only [Sys.step, hg, hd]; rfl⟩
  case slWait g =>
    obtain ⟨ch, hg, hd⟩ := hcl
    exact .inl ⟨.down, _, nofun, nofun, by simp only [Sys.step, hg, hd]; rfl⟩
  case rlWait g =>
    obtain ⟨ch, hg, hd⟩ := hcl
    exact .inl ⟨.down, _, nofun, nofun, by simp only [Sys.step, hg, hd]; rfl⟩
  case prSend g me =>
    obtain ⟨ch, hg⟩ := hget g href
    by_cases hr : ch.send.length < capacity
    · exact .inl ⟨.next, _, nofun, nofun, by simp only [Sys.step, Sys.comm, hg, Chans.pushSend, if_pos hr]; rfl⟩
    · exact .inr (.inl ⟨g, ch, rfl, hg, by simp only [Chans.items, flight]; omega⟩)
  case rdPush g b p =>
    obtain ⟨ch, hg⟩ := hget g href
    by_cases hr : ch.recv.length < capacity
    · exact .inl ⟨.next, _, nofun, nofun, by simp only [Sys.step, Sys.comm, hg, Chans.pushRecv, if_pos hr]; rfl⟩
    · exact .inr (.inl ⟨g, ch, rfl, hg, by simp only [Chans.items, flight]; omega⟩)
  case hPoll g p =>
    obtain ⟨ch, hg⟩ := hget g href
    by_cases hr : ch.poll.length < capacity
    · exact .inl ⟨.next, _, nofun, nofun, by simp only [Sys.step, Sys.comm, hg, Chans.pushPoll, if_pos hr]; rfl⟩
    · exact .inr (.inl ⟨g, ch, rfl, hg, by simp only [Chans.items, flight]; omega⟩)
  case hReply g p =>
    obtain ⟨ch, hg⟩ := hget g href
    by_cases hr : ch.pollReply.length < capacity
    · exact .inl ⟨.next, _, nofun, nofun, by simp only [Sys.step, Sys.comm, hg, Chans.pushReply, if_pos hr]; rfl⟩
    · exact .inr (.inl ⟨g, ch, rfl, hg, by simp only [Chans.items, flight]; omega⟩)
  case plSend g =>
    obtain ⟨ch, hg⟩ := hget g href.1
    by_cases hr : ch.send.length < capacity
    · exact .inl ⟨.next, _, nofun, nofun, by simp only [Sys.step, Sys.comm, hg, Chans.pushSend, if_pos hr]; rfl⟩
    · exact .inr (.inl ⟨g, ch, rfl, hg, by simp only [Chans.items, flight]; omega⟩)
  case plPoll g =>
    obtain ⟨ch, hg⟩ := hget g href.1
    by_cases hr : ch.poll.length < capacity
    · exact .inl ⟨.next, _, nofun, nofun, by simp only [Sys.step, Sys.comm, hg, Chans.pushPoll, if_pos hr]; rfl⟩
    · exact .inr (.inl ⟨g, ch, rfl, hg, by simp only [Chans.items, flight]; omega⟩)
  case duSend g e pend rest now =>
    obtain ⟨ch, hg⟩ := hget g href.1
    by_cases hr : ch.send.length < capacity
    · exact .inl ⟨.next, _, nofun, nofun, by simp only [Sys.step, Sys.comm, hg, Chans.pushSend, if_pos hr]; rfl⟩
    · exact .inr (.inl ⟨g, ch, rfl, hg, by simp only [Chans.items, flight]; omega⟩)
  case slCheck p => exact .inl ⟨.next, _, nofun, nofun, by simp only [Sys.step, hsh]; rfl⟩
  case slWrite p => exact .inl ⟨.fail, _, nofun, nofun, rfl⟩
  case rlInit => exact .inl ⟨.next, _, nofun, nofun, rfl⟩
  case rlParse p =>
    refine .inl ⟨.next, ?_⟩
    obtain ⟨r, hr⟩ := unmarshal_total p.data
    simp only [Sys.step, hr]
    split
    · rename_i hx; cases hx
    · exact ⟨_, nofun, nofun, rfl⟩
    · exact ⟨_, nofun, nofun, rfl⟩
  case rdTop b =>
    have hne : s.conns ≠ [] := by
      intro h0
      rcases hl.threads h0 _ (List.mem_of_getElem? ht) with hx | ⟨_, _, hx⟩ <;> cases hx
    have hk : ∃ k, s.conn = some k := by
      rw [hl.conn, lastIdx, if_neg]
      · exact ⟨_, rfl⟩
      · intro h0; exact hne (List.length_eq_zero_iff.mp h0)
    obtain ⟨k, hk⟩ := hk
    exact .inl ⟨.next, _, nofun, nofun, by simp only [Sys.step, hk]; rfl⟩
  case rdWait k b => exact .inl ⟨.fail, _, nofun, nofun, rfl⟩
  case rdCheck b res => exact .inl ⟨.next, _, nofun, nofun, by simp only [Sys.step, hsh]; rfl⟩
  case hStart p =>
    refine .inl ⟨.next, ?_⟩
    simp only [Sys.step]
    split
    · exact ⟨_, nofun, nofun, rfl⟩
    · exact ⟨_, nofun, nofun, rfl⟩
    · split
      · exact ⟨_, nofun, nofun, rfl⟩
      · split <;> exact ⟨_, nofun, nofun, rfl⟩
      · exact ⟨_, nofun, nofun, rfl⟩
  case plTop =>
    obtain ⟨k, hk⟩ := hccur href
    exact .inl ⟨.next, _, nofun, nofun, by simp only [Sys.step, hg0, hk]; rfl⟩
  case plWait g k => exact .inl ⟨.down, _, nofun, nofun, by simp only [Sys.step, show s.cdown[k]? = some true from hcl]; rfl⟩
  case plGc =>
    cases hlk : s.lock with
    | true => exact .inr (.inr ⟨rfl, .inl rfl⟩)
    | false => exact .inl ⟨.clock fun _ => 0, _, nofun, nofun, by simp only [Sys.step, hlk]; rfl⟩
  case plGot p =>
    cases hlk : s.lock with
    | true => exact .inr (.inr ⟨rfl, .inl rfl⟩)
    | false =>
      refine .inl ⟨.at 0, ?_⟩
      simp only [Sys.step, hlk]
      split <;> exact ⟨_, nofun, nofun, rfl⟩
  case duInit =>
    refine .inl ⟨.next, ?_⟩
    simp only [Sys.step]
    split <;> exact ⟨_, nofun, nofun, rfl⟩
  case duTop =>
    obtain ⟨k, hk⟩ := hccur href
    exact .inl ⟨.next, _, nofun, nofun, by simp only [Sys.step, hk]; rfl⟩
  case duWait k => exact .inl ⟨.down, _, nofun, nofun, by simp only [Sys.step, show s.cdown[k]? = some true from hcl]; rfl⟩
  case duLock => exact .inr (.inr ⟨rfl, .inr rfl⟩)
  case duTick pend rest now =>
    match pend, rest with
    | [], [] => exact .inl ⟨.next, _, nofun, nofun, rfl⟩
    | [], (a, r) :: rest => exact .inl ⟨.next, _, nofun, nofun, rfl⟩
    | e :: pend, rest => exact .inl ⟨.next, _, nofun, nofun, by simp only [Sys.step, hg0]; rfl⟩
  case caller d a =>
    cases hlk : s.lock with
    | true => exact .inr (.inr ⟨rfl, .inl rfl⟩)
    | false => exact .inl ⟨.next, _, nofun, nofun, by simp only [Sys.step, hlk]; rfl⟩

/-- The goroutine that holds the lock. -/
theorem holder_exists {P : Params} {s : Sys} (h : Reach P s) (hl : s.lock = true) :
    ∃ (i : Nat) (t : Thread), s.threads[i]? = some t ∧ (holder t).isSome = true := by
  have h1 := (lin_inv h).one
  rw [hl, if_pos rfl] at h1
  refine Classical.byContradiction fun hn => ?_
  have h0 : ∀ t ∈ s.threads, wHold t ≤ (fun _ : Thread => 0) t := by
    intro t ht
    obtain ⟨i, hi⟩ := List.mem_iff_getElem?.mp ht
    have : (holder t).isSome = false := by
      cases hx : (holder t).isSome with
      | false => rfl
      | true => exact absurd ⟨i, t, hi, hx⟩ hn
    simp [wHold, this]
  have h2 := total_le_total h0
  have h3 : total (fun _ : Thread => 0) s.threads = 0 := by
    generalize s.threads = l
    induction l with
    | nil => rfl
    | cons a l ih => simp [ih]
  omega

/-- Then some goroutine can go on, unless all have returned, or one needs room that is not there. -/
theorem some_go {P : Params} {s : Sys} (h : Reach P s) (hp : s.phase = .stopped)
    (hcl : ∀ t ∈ s.threads, closedFor s t) (hlk : Thread.duLock ∉ s.threads)
    (hroom : ∀ (i g : Nat) (t : Thread) (ch : Chans), s.threads[i]? = some t → t.sending = some g →
      s.chans[g]? = some ch → flight t + ch.items ≤ capacity) (hn : ∃ t ∈ s.threads, t ≠ .done) :
    ∃ (i : Nat) (t : Thread) (c : Choice) (s' : Sys), s.threads[i]? = some t ∧ c ≠ .tick ∧ c ≠ .gcTick ∧
      s.step P i t c = some s' := by
  obtain ⟨t, hm, hd⟩ := hn
  obtain ⟨i, ht⟩ := List.mem_iff_getElem?.mp hm
  rcases can_go h hp (hcl t hm) ht hd with ⟨c, s', h1, h2, h3⟩ | ⟨g, ch, hs, hg, hx⟩ | ⟨_, hl⟩
  · exact ⟨i, t, c, s', ht, h1, h2, h3⟩
  · have := hroom i g t ch ht hs hg; omega
  · rcases hl with hl | rfl
    · obtain ⟨j, u, hu, hh⟩ := holder_exists h hl
      have hud : u ≠ .done := by rintro rfl; cases hh
      rcases can_go h hp (hcl u (List.mem_of_getElem? hu)) hu hud with
        ⟨c, s', h1, h2, h3⟩ | ⟨g, ch, hs, hg, hx⟩ | ⟨hx, _⟩
      · exact ⟨j, u, c, s', hu, h1, h2, h3⟩
      · have := hroom j g u ch hu hs hg; omega
      · cases u <;> first | (cases hx; done) | (cases hh; done)
    · exact absurd hm hlk

/-- With at most ten items under way no goroutine waits for room. -/
theorem room {s : Sys} {i g : Nat} {t : Thread} {ch : Chans} (hf : s.inFlight ≤ capacity)
    (ht : s.threads[i]? = some t) (hg : s.chans[g]? = some ch) : flight t + ch.items ≤ capacity := by
  have h1 := total_ge flight ht
  have h2 := total_ge Chans.items hg
  simp only [Sys.inFlight] at hf
  simp only [total] at h1 h2
  omega

end Verif.Conc
