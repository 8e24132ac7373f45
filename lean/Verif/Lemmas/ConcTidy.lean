import Verif.Lemmas.ConcStop
import Verif.Lemmas.ConcStuck
import Verif.Lemmas.ConcChan
/-
Executions in which Start waits for the goroutines of earlier sessions.
-/
namespace Verif.Conc
open Packet Code Artnet Spec

theorem TidyReach.reach {P : Params} {s : Sys} (h : TidyReach P s) : Reach P s := by
  induction h with
  | init => exact Reach.init P
  | step _ hx _ ih => exact ih.exec hx

theorem TidyReach.quiet {P : Params} {as : List Act} {s s' : Sys} (h : TidyReach P s)
    (hq : ∀ a ∈ as, a.quiet = true) (he : s.execs P as = some s') : TidyReach P s' := by
  induction as generalizing s with
  | nil => cases he; exact h
  | cons a as ih =>
    simp only [Sys.execs] at he
    cases hx : s.exec P a with
    | none => rw [hx] at he; cases he
    | some s1 =>
      rw [hx] at he
      refine ih (h.step hx ?_) (fun b hb => hq b (List.mem_cons_of_mem _ hb)) he
      rintro rfl
      have := hq _ (List.mem_cons_self ..)
      cases this

theorem exec_run {P : Params} {s : Sys} {i : Nat} {t : Thread} (hcr : s.crashed = none)
    (ht : s.threads[i]? = some t) (c : Choice) : s.exec P (.run i c) = s.step P i t c := by
  unfold Sys.exec
  rw [hcr, if_neg (by simp)]
  simp only [ht]

/-- Only Start makes channels. -/
theorem exec_same {P : Params} {s s' : Sys} {a : Act} (hx : s.exec P a = some s') (ha : a ≠ .start) :
    s'.chans.length = s.chans.length ∧ s'.cdown.length = s.cdown.length := by
  have hcr := (exec_Step hx).1
  unfold Sys.exec at hx
  rw [hcr, if_neg (by simp)] at hx
  cases a with
  | start => exact absurd rfl ha
  | run i c =>
    simp only at hx
    split at hx
    · cases hx
    · have hf := step_frame hx
      have := congrArg List.length hf.down
      simp only [List.length_map] at this
      exact ⟨this, by rw [hf.cdown]⟩
  | listen ok =>
    simp only at hx
    split at hx
    · cases hx
    · split at hx <;> cases hx <;> exact ⟨rfl, rfl⟩
  | stop =>
    simp only at hx
    split at hx
    · cases hx
    · split at hx <;> cases hx <;> exact ⟨rfl, rfl⟩
  | stopStep =>
    simp only at hx
    split at hx
    · split at hx
      · cases hx; exact ⟨rfl, rfl⟩
      · split at hx
        · cases hx; exact ⟨rfl, rfl⟩
        · split at hx <;> cases hx <;> simp [Sys.panic]
    · split at hx <;> cases hx <;> exact ⟨rfl, rfl⟩
    · split at hx
      · cases hx; exact ⟨rfl, rfl⟩
      · split at hx <;> cases hx <;> simp [Sys.panic]
    · cases hx
  | register o h =>
    simp only at hx
    split at hx
    · cases hx
    · split at hx <;> cases hx <;> exact ⟨rfl, rfl⟩
  | deregister o =>
    simp only at hx
    split at hx
    · cases hx
    · split at hx <;> cases hx <;> exact ⟨rfl, rfl⟩
  | call d x =>
    simp only at hx
    split at hx <;> cases hx
    exact ⟨rfl, rfl⟩

/-- Induction over the steps of such an execution. -/
theorem TidyReach.induct {P : Params} {I : Sys → Prop} (h0 : I (Sys.init P))
    (hs : ∀ s s', TidyReach P s → I s → s.crashed = none → Step P s s' →
      (s.chans.length < s'.chans.length ∨ s.cdown.length < s'.cdown.length → ∀ t ∈ s.threads, t.idle = true) → I s')
    {s : Sys} (h : TidyReach P s) : I s := by
  induction h with
  | init => exact h0
  | @step s s' a h hx ht ih =>
    obtain ⟨hcr, hst⟩ := exec_Step hx
    refine hs s s' h ih hcr hst fun hg => ?_
    by_cases ha : a = .start
    · exact ht ha
    · have := exec_same hx ha
      omega

/-- The channels that a goroutine refers to are the newest. -/
def topOK (n k : Nat) : Thread → Prop
  | .prWait g _ | .prSend g _ | .slWait g | .rlWait g | .rdPush g _ _ | .hPoll g _ | .hReply g _
  | .plSend g | .plPoll g | .duSend g _ _ _ _ => g + 1 = n
  | .plWait g j => g + 1 = n ∧ j + 1 = k
  | .duWait j => j + 1 = k
  | _ => True

theorem topOK.idle {n k : Nat} {t : Thread} (h : t.idle = true) : topOK n k t := by
  cases t <;> first | trivial | cases h

theorem lastIdx_top {l : List α} {k : Nat} (h : lastIdx l = some k) : k + 1 = l.length := by
  simp only [lastIdx] at h
  split at h
  · cases h
  · cases h; omega

theorem latest {P : Params} {s : Sys} (h : TidyReach P s) :
    ∀ t ∈ s.threads, topOK s.chans.length s.cdown.length t := by
  refine TidyReach.induct (P := P) (I := fun s => ∀ t ∈ s.threads, topOK s.chans.length s.cdown.length t) ?_ ?_ h
  · intro t ht; cases ht
  intro s s' hr ih _ hst hclean
  have hl := life hr.reach
  have hcur : ∀ {g}, s.cur = some g → g + 1 = s.chans.length := fun hg => lastIdx_top (hl.cur ▸ hg)
  have hccur : ∀ {k}, s.ccur = some k → k + 1 = s.cdown.length := fun hg => lastIdx_top (hl.ccur ▸ hg)
  have at' : ∀ {i : Nat} {t}, s.threads[i]? = some t → topOK s.chans.length s.cdown.length t :=
    fun ht => ih _ (List.mem_of_getElem? ht)
  have upd : ∀ {i : Nat} {t'}, topOK s.chans.length s.cdown.length t' →
      ∀ u ∈ s.threads.set i t', topOK s.chans.length s.cdown.length u := by
    intro i t' h' u hu
    rcases List.mem_or_eq_of_mem_set hu with hu | rfl
    · exact ih u hu
    · exact h'
  have updc : ∀ {i g : Nat} {ch t'}, topOK s.chans.length s.cdown.length t' →
      ∀ u ∈ s.threads.set i t', topOK (s.chans.set g ch).length s.cdown.length u := by
    intro i g ch t' h'; rw [List.length_set]; exact upd h'
  cases hst with
  | panic _ => exact ih
  | move ht m =>
    refine upd ?_
    cases m <;> simp only [topOK] <;> first | trivial | exact hcur ‹_› | exact hccur ‹_› | skip
    rename_i hg hk
    exact ⟨hcur hg, hccur hk⟩
  | pushSend ht k hg hl => refine updc ?_; cases k <;> trivial
  | popPoll | popSend | popRecv | popReply | pushDmx | pushRecv | pushPoll | pushOwn | pushReply =>
    exact updc trivial
  | spawnReader ht =>
    intro u hu
    rcases List.mem_append.mp hu with hu | hu
    · exact upd (t' := .rlTop) trivial u hu
    · cases List.mem_singleton.mp hu; trivial
  | spawnHandler ht hu =>
    intro u hu
    rcases List.mem_append.mp hu with hu | hu
    · exact upd (t' := .rlTop) trivial u hu
    · cases List.mem_singleton.mp hu; trivial
  | call ht _ hc => refine upd ?_; cases hc <;> trivial
  | startPanic _ _ =>
    simp only [Sys.reset, Sys.panic, Sys.resetTables] at hclean ⊢
    split
    · rename_i hP
      rw [if_pos hP] at hclean
      exact fun t ht => topOK.idle (hclean (.inr (by simp)) t ht)
    · exact ih
  | startFail _ _ =>
    simp only [Sys.reset, Sys.resetTables] at hclean ⊢
    split
    · rename_i hP
      rw [if_pos hP] at hclean
      exact fun t ht => topOK.idle (hclean (.inr (by simp)) t ht)
    · exact ih
  | start _ _ =>
    simp only [Sys.reset, Sys.makeChannels, Sys.resetTables] at hclean ⊢
    have hcl := hclean (.inl (by split <;> simp))
    split <;> exact fun t ht => topOK.idle (hcl t ht)
  | listen _ =>
    intro u hu
    rcases List.mem_append.mp hu with hu | hu
    · exact ih u hu
    · simp only [Params.goroutines] at hu
      split at hu <;> simp at hu
      · rcases hu with rfl | rfl | rfl | rfl | rfl <;> trivial
      · rcases hu with rfl | rfl | rfl <;> trivial
  | close hc _ hg _ => intro t ht; show topOK (s.chans.set _ _).length _ t; rw [List.length_set]; exact ih t ht
  | ended _ _ _ => intro t ht; show topOK _ (s.cdown.set _ _).length t; rw [List.length_set]; exact ih t ht
  | spawnCaller _ =>
    intro u hu
    rcases List.mem_append.mp hu with hu | hu
    · exact ih u hu
    · cases List.mem_singleton.mp hu; trivial
  | listenFail | stop | disconnectC | disconnect | register | deregister | noRegister => exact ih
  | _ => exact upd trivial

theorem dropLast_set {l : List α} {g : Nat} {a : α} (hg : g + 1 = l.length) : (l.set g a).dropLast = l.dropLast := by
  apply List.ext_getElem?
  intro i
  rw [List.getElem?_dropLast, List.getElem?_dropLast, List.length_set]
  split
  · rw [List.getElem?_set_ne (by omega)]
  · rfl

/-- A goroutine changes the newest channels only. -/
theorem step_old {P : Params} {s s' : Sys} {i : Nat} {t : Thread} {c : Choice} (hr : TidyReach P s)
    (ht : s.threads[i]? = some t) (h : s.step P i t c = some s') : s'.chans.dropLast = s.chans.dropLast := by
  have htop := latest hr t (List.mem_of_getElem? ht)
  cases step_Run h with
  | popPoll | popSend | popRecv | pushDmx | pushRecv | pushPoll | pushOwn | pushReply => exact dropLast_set htop
  | popReply => exact dropLast_set htop.1
  | pushSend k => cases k <;> exact dropLast_set htop
  | _ => rfl

theorem quiet_old {P : Params} {as : List Act} {s s' : Sys} (h : TidyReach P s)
    (hq : ∀ a ∈ as, a.quiet = true) (he : s.execs P as = some s') : s'.chans.dropLast = s.chans.dropLast := by
  induction as generalizing s with
  | nil => cases he; rfl
  | cons a as ih =>
    simp only [Sys.execs] at he
    cases hx : s.exec P a with
    | none => rw [hx] at he; cases he
    | some s1 =>
      rw [hx] at he
      have hqa := hq a (List.mem_cons_self ..)
      have h1 : TidyReach P s1 := h.step hx (by rintro rfl; cases hqa)
      rw [ih h1 (fun b hb => hq b (List.mem_cons_of_mem _ hb)) he]
      have hcr := (exec_Step hx).1
      match a, hqa with
      | .run i c, _ =>
        cases ht : s.threads[i]? with
        | none =>
          unfold Sys.exec at hx
          rw [hcr, if_neg (by simp)] at hx
          simp only [ht] at hx
          cases hx
        | some t =>
          rw [exec_run hcr ht] at hx
          exact step_old h ht hx

/-- The items under way and those left over. -/
theorem inFlight_eq (s : Sys) : s.inFlight = s.underWay + (s.chans.dropLast.map Chans.items).sum := by
  simp only [Sys.inFlight, Sys.underWay]
  cases hl : s.chans.getLast? with
  | none =>
    rw [List.getLast?_eq_none_iff] at hl
    rw [hl]
    rfl
  | some ch =>
    have : s.chans = s.chans.dropLast ++ [ch] := by
      obtain ⟨l, hl⟩ := List.getLast?_eq_some_iff.mp hl
      rw [hl, List.dropLast_concat]
    rw [congrArg (fun l => (List.map Chans.items l).sum) this]
    simp only [List.map_append, List.sum_append, List.map_cons, List.map_nil, List.sum_cons, List.sum_nil]
    omega

/-- The queue that a goroutine sends to is the newest. -/
theorem room_tidy {P : Params} {s : Sys} (hr : TidyReach P s) (hf : s.underWay ≤ capacity) {i g : Nat} {t : Thread}
    {ch : Chans} (ht : s.threads[i]? = some t) (hs : t.sending = some g) (hg : s.chans[g]? = some ch) :
    flight t + ch.items ≤ capacity := by
  have htop := latest hr t (List.mem_of_getElem? ht)
  have hgl : g + 1 = s.chans.length := by cases t <;> first | (cases hs; done) | (cases hs; exact htop)
  have h1 := total_ge flight ht
  simp only [Sys.underWay, List.getLast?_eq_getElem?, ← hgl, Nat.add_sub_cancel, hg] at hf
  simp only [total] at h1
  omega

theorem closedFor_tidy {P : Params} {s : Sys} (hr : TidyReach P s) (hp : s.phase = .stopped) :
    ∀ t ∈ s.threads, closedFor s t := by
  intro t ht
  have htop := latest hr t ht
  have href := refs hr.reach t ht
  have hlf := life hr.reach
  obtain ⟨c0, h0, hd⟩ := hlf.closed (.inr (.inr hp))
  have hget : ∀ {g}, g + 1 = s.chans.length → ∃ ch, s.chans[g]? = some ch ∧ ch.down = true := by
    intro g hg
    rw [List.getLast?_eq_getElem?, ← hg, Nat.add_sub_cancel] at h0
    exact ⟨c0, h0, hd⟩
  have hcget : ∀ {k}, P.controller = true → k + 1 = s.cdown.length → s.cdown[k]? = some true := by
    intro k hP hk
    have := hlf.cclosed hP hp
    rw [List.getLast?_eq_getElem?, ← hk, Nat.add_sub_cancel] at this
    exact this
  cases t <;> first | trivial | exact hget htop | exact hcget href.2 htop | exact hcget href.2.2 htop.2

/-- There are no more connections than calls of Start that made channels. -/
theorem conns_le {P : Params} {s : Sys} (h : Reach P s) : s.conns.length ≤ s.chans.length ∧
    (s.control = .listening → s.conns.length < s.chans.length) := by
  refine Reach.induct (P := P) (I := fun s => s.conns.length ≤ s.chans.length ∧
    (s.control = .listening → s.conns.length < s.chans.length)) ?_ ?_ h
  · exact ⟨Nat.le_refl _, nofun⟩
  intro s s' _ ih _ hst
  cases hst with
  | start hc =>
    simp only [Sys.reset, Sys.makeChannels, Sys.resetTables]
    have h2 := ih.1
    split <;> simp <;> omega
  | startPanic | startFail =>
    simp only [Sys.reset, Sys.panic, Sys.resetTables]
    split <;> exact ih
  | listen hc =>
    have := ih.2 hc
    refine ⟨?_, nofun⟩
    simp only [List.length_append, List.length_singleton]
    omega
  | close hc => exact ⟨by simpa [Sys.setCh] using ih.1, nofun⟩
  | disconnect | disconnectC =>
    have hl : s.closeConn.length = s.conns.length := by
      simp only [Sys.closeConn]; split <;> simp
    simp only [hl]
    exact ⟨ih.1, nofun⟩
  | listenFail | stop | ended => exact ⟨ih.1, nofun⟩
  | _ => first | exact ih | (simp only [Sys.goto, Sys.setCh, List.length_set]; exact ih)

/-- The first session is always in order. -/
theorem first_tidy {P : Params} {s : Sys} (h : Reach P s) (h1 : s.chans.length ≤ 1) : TidyReach P s := by
  obtain ⟨as, ha⟩ := h
  suffices ∀ as s0, TidyReach P s0 → s0.execs P as = some s → TidyReach P s from this as _ .init ha
  intro as
  induction as with
  | nil => intro s0 hi he; cases he; exact hi
  | cons a as ih =>
    intro s0 hr he
    simp only [Sys.execs] at he
    cases hx : s0.exec P a with
    | none => rw [hx] at he; cases he
    | some s1 =>
      rw [hx] at he
      refine ih s1 (hr.step hx ?_) he
      rintro rfl
      have mono : ∀ (as : List Act) (s2 : Sys), s2.execs P as = some s → s2.chans.length ≤ 1 := by
        intro as
        induction as with
        | nil => intro s2 he; cases he; exact h1
        | cons b bs ihb =>
          intro s2 he
          simp only [Sys.execs] at he
          cases hy : s2.exec P b with
          | none => rw [hy] at he; cases he
          | some s3 =>
            rw [hy] at he
            have h3 := ihb s3 he
            by_cases hb : b = .start
            · subst hb
              unfold Sys.exec at hy
              simp only at hy
              have e3 : (if P.controller = true then s2.resetTables else s2).chans = s2.chans := by split <;> rfl
              split at hy
              · cases hy
              · split at hy
                · cases hy
                · split at hy
                  · cases hy; rw [← e3]; exact h3
                  · cases hy; rw [← e3]; exact h3
                  · cases hy
                    simp only [Sys.makeChannels, List.length_append, e3] at h3
                    omega
            · have := exec_same hy hb; omega
      have h3 := mono as s1 he
      have hlf := life hr.reach
      have hnil : s0.chans = [] := by
        cases hv : P.config.validate with
        | error f =>
          refine Classical.byContradiction fun hn => ?_
          have := hlf.valid hn; rw [hv] at this; cases this
        | ok r =>
          cases r with
          | some e =>
            refine Classical.byContradiction fun hn => ?_
            have := hlf.valid hn; rw [hv] at this; cases this
          | none =>
            unfold Sys.exec at hx
            have e3 : (if P.controller = true then s0.resetTables else s0).chans = s0.chans := by split <;> rfl
            simp only [hv] at hx
            split at hx
            · cases hx
            · split at hx
              · cases hx
              · cases hx
                simp only [Sys.makeChannels, List.length_append, e3, List.length_singleton] at h3
                exact List.length_eq_zero_iff.mp (by omega)
      have hc := (conns_le hr.reach).1
      rw [hnil] at hc
      have hc : s0.conns = [] := List.length_eq_zero_iff.mp (Nat.le_zero.mp hc)
      intro t ht
      rcases hlf.threads hc t ht with rfl | ⟨d, x, rfl⟩ <;> rfl

end Verif.Conc
