import Verif.Lemmas.FairLoops
/-
While the node runs it keeps reading from its connection.
-/
namespace Verif.Conc
open Packet Code Artnet Spec

/-- While Start is between its checks and the connection, no goroutine of a session runs, and a goroutine that reads does so
from the newest connection. -/
theorem reads_newest {P : Params} {s : Sys} (h : TidyReach P s) :
    (s.control = .listening → ∀ t ∈ s.threads, t.idle = true) ∧
    (∀ k b, .rdWait k b ∈ s.threads → k + 1 = s.conns.length) := by
  refine TidyReach.induct (P := P) (I := fun s => (s.control = .listening → ∀ t ∈ s.threads, t.idle = true) ∧
    (∀ k b, .rdWait k b ∈ s.threads → k + 1 = s.conns.length)) ⟨nofun, nofun⟩ ?_ h
  clear h s
  intro s s' hr ih hcr hst hclean
  obtain ⟨ih1, ih2⟩ := ih
  have hl := life hr.reach
  have at1 : ∀ {i : Nat} {t : Thread}, s.threads[i]? = some t → s.control = .listening → t.idle = true :=
    fun ht hc => ih1 hc _ (List.mem_of_getElem? ht)
  have upd1 : ∀ {i : Nat} {t t' : Thread}, s.threads[i]? = some t → (t.idle = true → t'.idle = true) →
      s.control = .listening → ∀ u ∈ s.threads.set i t', u.idle = true := by
    intro i t t' ht ht' hc u hu
    rcases List.mem_or_eq_of_mem_set hu with hu | rfl
    · exact ih1 hc u hu
    · exact ht' (at1 ht hc)
  have upd2 : ∀ {i : Nat} {t' : Thread}, (∀ k b, t' = .rdWait k b → k + 1 = s.conns.length) →
      ∀ k b, .rdWait k b ∈ s.threads.set i t' → k + 1 = s.conns.length := by
    intro i t' h k b hm
    rcases List.mem_or_eq_of_mem_set hm with hm | hm
    · exact ih2 k b hm
    · exact h k b hm.symm
  have app1 : ∀ {i : Nat} {t t' t2 : Thread}, s.threads[i]? = some t → t.idle = false →
      s.control = .listening → ∀ u ∈ s.threads.set i t' ++ [t2], u.idle = true := by
    intro i t t' t2 ht hf hc
    rw [at1 ht hc] at hf
    cases hf
  have app2 : ∀ {i : Nat} {t' t2 : Thread}, (∀ k b, t' ≠ .rdWait k b) → (∀ k b, t2 ≠ .rdWait k b) →
      ∀ k b, .rdWait k b ∈ s.threads.set i t' ++ [t2] → k + 1 = s.conns.length := by
    intro i t' t2 h h2 k b hm
    rcases List.mem_append.mp hm with hm | hm
    · exact upd2 (fun k b hx => absurd hx (h k b)) k b hm
    · exact absurd (List.mem_singleton.mp hm).symm (h2 k b)
  cases hst with
  | panic _ => exact ⟨ih1, ih2⟩
  | move ht m =>
    refine ⟨upd1 ht ?_, upd2 ?_⟩
    · cases m <;> nofun
    · intro k b hx
      cases m <;> first | (cases hx; done) | skip
      rename_i hg
      cases hx
      exact lastIdx_top (hl.conn ▸ hg)
  | pushSend ht k hg hl =>
    refine ⟨upd1 ht ?_, upd2 ?_⟩
    · cases k <;> nofun
    · cases k <;> nofun
  | call ht _ hc =>
    refine ⟨upd1 ht nofun, upd2 ?_⟩
    cases hc <;> nofun
  | spawnReader ht => exact ⟨app1 ht rfl, app2 nofun nofun⟩
  | spawnHandler ht hu => exact ⟨app1 ht rfl, app2 nofun nofun⟩
  | startPanic _ _ =>
    simp only [Sys.reset, Sys.panic, Sys.resetTables]
    split <;> exact ⟨ih1, ih2⟩
  | startFail _ _ =>
    simp only [Sys.reset, Sys.resetTables]
    split <;> exact ⟨ih1, ih2⟩
  | start _ _ =>
    simp only [Sys.reset, Sys.makeChannels, Sys.resetTables] at hclean ⊢
    have hcl := hclean (.inl (by split <;> simp))
    split <;> exact ⟨fun _ => hcl, ih2⟩
  | listen hc =>
    refine ⟨nofun, fun k b hm => ?_⟩
    rcases List.mem_append.mp hm with hm | hm
    · have := ih1 hc _ hm
      cases this
    · simp only [Params.goroutines] at hm
      split at hm <;> simp at hm
  | listenFail => exact ⟨nofun, ih2⟩
  | disconnectC | disconnect =>
    refine ⟨nofun, fun k b hm => ?_⟩
    rw [ih2 k b hm]
    simp only [Sys.closeConn]
    split <;> simp
  | stop | close | ended => exact ⟨nofun, ih2⟩
  | spawnCaller _ =>
    refine ⟨fun hc u hu => ?_, fun k b hm => ?_⟩
    · rcases List.mem_append.mp hu with hu | hu
      · exact ih1 hc u hu
      · cases List.mem_singleton.mp hu; rfl
    · rcases List.mem_append.mp hm with hm | hm
      · exact ih2 k b hm
      · cases List.mem_singleton.mp hm
  | register | deregister | noRegister => exact ⟨ih1, ih2⟩
  | _ =>
    refine ⟨upd1 (by assumption) ?_, upd2 nofun⟩
    first | exact fun _ => rfl | (intro h; cases h)

/-- What will read, or reads, from the connection. -/
def isRd : Thread → Bool
  | .rlInit | .rdTop _ | .rdWait _ _ | .rdCheck _ _ | .rdGot _ _ | .rdPush _ _ _ => true
  | _ => false

theorem run_rd {P : Params} {s s' : Sys} {i : Nat} {t : Thread} {c : Choice} (hs : s.shutdown = false)
    (ht : s.threads[i]? = some t) (hk : isRd t = true) (h : Run P s i t c s') (hcr : s'.crashed = none) :
    ∃ t' ∈ s'.threads, isRd t' = true := by
  have hlt := (List.getElem?_eq_some_iff.mp ht).1
  have set : ∀ {t' : Thread}, isRd t' = true → ∃ t2 ∈ s.threads.set i t', isRd t2 = true :=
    fun h1 => ⟨_, List.mem_set hlt _, h1⟩
  cases h with
  | panic => cases hcr
  | move m _ => cases m <;> first | (cases hk; done) | exact set rfl | (rename_i h; rw [hs] at h; cases h)
  | pushSend k _ _ => cases k <;> cases hk
  | spawnReader => exact ⟨.rdTop _, List.mem_append_right _ (List.mem_singleton.mpr rfl), rfl⟩
  | lose h => rw [hs] at h; cases h
  | _ => first | (cases hk; done) | exact set rfl

/-- While a session is on somebody reads. -/
theorem reader_alive {P : Params} {s : Sys} (h : TidyReach P s) : s.crashed = none →
    ∀ g, Running g s → ∃ t ∈ s.threads, isRd t = true := by
  induction h with
  | init => exact fun _ _ hR => by cases hR.phase
  | @step s s' a hr hx htidy ih =>
  intro hcr' g hR'
  have hcr := (exec_Step hx).1
  have ih := ih hcr
  have hr' : TidyReach P s' := hr.step hx htidy
  have add : ∀ {l}, s'.threads = s.threads ++ l → Running g s → ∃ t ∈ s'.threads, isRd t = true := by
    intro l hl hR
    obtain ⟨t, ht, hk⟩ := ih g hR
    exact ⟨t, by rw [hl]; exact List.mem_append_left _ ht, hk⟩
  cases a with
  | run i c =>
    cases ht : s.threads[i]? with
    | none =>
      unfold Sys.exec at hx
      rw [hcr, if_neg (by simp)] at hx
      simp only [ht] at hx
      cases hx
    | some t =>
      rw [exec_run hcr ht] at hx
      have hf := step_frame hx
      have hR : Running g s := ⟨hf.phase.symm.trans hR'.phase, by rw [← hf.conns]; exact hR'.conn,
        (frame_length hf).symm.trans hR'.top⟩
      obtain ⟨u, hu, hku⟩ := ih g hR
      obtain ⟨j, hj⟩ := List.mem_iff_getElem?.mp hu
      have hrun := step_Run hx
      by_cases hij : i = j
      · subst hij
        rw [ht] at hj
        cases hj
        exact run_rd (hR.nothing_closed hr.reach).2.1 ht hku hrun hcr'
      · have hjlt := (List.getElem?_eq_some_iff.mp hj).1
        have old : ∀ {t' l}, s'.threads = s.threads.set i t' ++ l → ∃ t ∈ s'.threads, isRd t = true := by
          intro t' l hl
          refine ⟨u, List.mem_of_getElem? (i := j) ?_, hku⟩
          rw [hl, List.getElem?_append_left (by simpa using hjlt), List.getElem?_set_ne hij]
          exact hj
        have old0 : ∀ {t'}, s'.threads = s.threads.set i t' → ∃ t ∈ s'.threads, isRd t = true := by
          intro t' hl
          exact old (l := []) (by rw [List.append_nil]; exact hl)
        cases hrun with
        | panic => exact ⟨u, hu, hku⟩
        | spawnReader => exact old rfl
        | spawnHandler => exact old rfl
        | _ => exact old0 rfl
  | start =>
    obtain ⟨t, ht, hk⟩ := loops_alive hr' hcr' hR' 1 (.inl rfl)
    have hidle := htidy rfl
    have hth : s'.threads = s.threads := by
      unfold Sys.exec at hx
      rw [hcr, if_neg (by simp)] at hx
      simp only at hx
      split at hx
      · cases hx
      have e1 : (if P.controller = true then s.resetTables else s).threads = s.threads := by split <;> rfl
      split at hx <;> cases hx <;> exact e1
    rw [hth] at ht
    have := idle_kind (hidle t ht)
    omega
  | listen ok =>
    unfold Sys.exec at hx
    rw [hcr, if_neg (by simp)] at hx
    simp only at hx
    split at hx
    · cases hx
    rename_i hctl
    have hctl : s.control = .listening := by simpa using hctl
    split at hx
    · cases hx
      exact ⟨.rlInit, List.mem_append_right _ (by simp [Params.goroutines]), rfl⟩
    · cases hx
      exact absurd hR'.conn ((alive hr hcr).1 hctl)
  | stop =>
    unfold Sys.exec at hx
    rw [hcr, if_neg (by simp)] at hx
    simp only at hx
    split at hx
    · cases hx
    split at hx
    · cases hx; cases hcr'
    · cases hx; cases hR'.phase
  | stopStep =>
    have hlf := life hr.reach
    have hph : s.phase = .stopping := by
      refine hlf.stopping.mpr ?_
      unfold Sys.exec at hx
      rw [hcr, if_neg (by simp)] at hx
      simp only at hx
      split at hx <;> first | (rename_i h; simp [h]; done) | (cases hx; done)
    have bad : s'.phase = s.phase ∨ s'.phase = .stopped ∨ s'.crashed ≠ none := by
      unfold Sys.exec at hx
      rw [hcr, if_neg (by simp)] at hx
      simp only at hx
      split at hx
      · split at hx
        · cases hx; exact .inr (.inr nofun)
        · split at hx
          · cases hx; exact .inr (.inr nofun)
          · split at hx
            · cases hx; exact .inr (.inr nofun)
            · cases hx; exact .inl rfl
      · split at hx
        · cases hx; exact .inl rfl
        · cases hx; exact .inr (.inl rfl)
      · split at hx
        · cases hx; exact .inr (.inr nofun)
        · split at hx
          · cases hx; exact .inr (.inr nofun)
          · cases hx; exact .inr (.inl rfl)
      · cases hx
    have hp := hR'.phase
    rcases bad with h | h | h
    · rw [h, hph] at hp; cases hp
    · rw [h] at hp; cases hp
    · exact absurd hcr' h
  | register o h =>
    unfold Sys.exec at hx
    rw [hcr, if_neg (by simp)] at hx
    simp only at hx
    split at hx
    · cases hx
    split at hx <;> cases hx <;> exact add (l := []) (List.append_nil _).symm ⟨hR'.1, hR'.2, hR'.3⟩
  | deregister o =>
    unfold Sys.exec at hx
    rw [hcr, if_neg (by simp)] at hx
    simp only at hx
    split at hx
    · cases hx
    split at hx <;> cases hx <;> exact add (l := []) (List.append_nil _).symm ⟨hR'.1, hR'.2, hR'.3⟩
  | call d x =>
    unfold Sys.exec at hx
    rw [hcr, if_neg (by simp)] at hx
    simp only at hx
    split at hx
    · cases hx
      exact add rfl ⟨hR'.1, hR'.2, hR'.3⟩
    · cases hx

/-- How far the reader is from its read. -/
def rdRank : Thread → Nat
  | .rdTop _ => 1 | .rdPush _ _ _ => 2 | .rdGot _ _ => 3 | .rdCheck _ _ => 4 | .rlInit => 5
  | _ => 0

theorem run_rdRank {P : Params} {s s' : Sys} {i : Nat} {t : Thread} {c : Choice} (hs : s.shutdown = false)
    (ht : s.threads[i]? = some t) (hk : isRd t = true) (h0 : 0 < rdRank t) (h : Run P s i t c s') (hcr : s'.crashed = none) :
    ∃ (j : Nat) (t' : Thread), s'.threads[j]? = some t' ∧ isRd t' = true ∧ rdRank t' < rdRank t := by
  have hlt := (List.getElem?_eq_some_iff.mp ht).1
  have set : ∀ {t' : Thread}, isRd t' = true → rdRank t' < rdRank t → ∃ (j : Nat) (t2 : Thread),
      (s.threads.set i t')[j]? = some t2 ∧ isRd t2 = true ∧ rdRank t2 < rdRank t :=
    fun h1 h2 => ⟨i, _, List.getElem?_set_self hlt, h1, h2⟩
  cases h with
  | panic => cases hcr
  | move m _ => cases m <;> first | (cases hk; done) | (exact absurd h0 (Nat.lt_irrefl _)) | exact set rfl (by simp [rdRank]) |
      (rename_i h; rw [hs] at h; cases h)
  | pushSend k _ _ => cases k <;> cases hk
  | spawnReader =>
    refine ⟨s.threads.length, .rdTop (List.replicate bufSize 0), ?_, rfl, by simp [rdRank]⟩
    show (s.threads.set i .rlTop ++ [_])[s.threads.length]? = _
    rw [List.getElem?_append_right (by simp), List.length_set, Nat.sub_self]
    rfl
  | lose h => rw [hs] at h; cases h
  | _ => first | (cases hk; done) | (exact absurd h0 (Nat.lt_irrefl _)) | exact set rfl (by simp [rdRank])

namespace Exec
variable {P : Params} (e : Exec P)

/-- Again and again somebody reads from the connection. -/
theorem reading (hf : e.Fair) (n : Nat) : ∃ (m i k : Nat) (b : Bytes), n ≤ m ∧ (e.state m).threads[i]? = some (.rdWait k b) ∧
    (e.state m).conns[k]? = some true := by
  obtain ⟨g, hg⟩ := e.running
  have key : ∀ (r n i : Nat) (t : Thread), rdRank t ≤ r → (e.state n).threads[i]? = some t → isRd t = true →
      ∃ (m i k : Nat) (b : Bytes), n ≤ m ∧ (e.state m).threads[i]? = some (.rdWait k b) := by
    intro r
    induction r with
    | zero =>
      intro n i t h0 ht hi
      cases t <;> first | (cases hi; done) | (simp [rdRank] at h0; done) | exact ⟨n, i, _, _, Nat.le_refl _, ht⟩
    | succ r ih =>
      intro n i t h0 ht hi
      by_cases h1 : rdRank t = 0
      · exact ih n i t (by omega) ht hi
      · have hrest : t.resting = false := by cases t <;> first | rfl | (exact absurd rfl h1)
        obtain ⟨m, c, hm, ht', _, hrun⟩ := e.goes_on hf hg (.inr (.inr fun g p hx => by rw [hx] at hi; cases hi)) ht hrest
        obtain ⟨j, t', a1, a2, a3⟩ := run_rdRank ((hg m).nothing_closed (e.reach m).reach).2.1 ht' hi (by omega) hrun (e.alive _)
        obtain ⟨m', i', k, b, b1, b2⟩ := ih (m + 1) j t' (by omega) a1 a2
        exact ⟨m', i', k, b, by omega, b2⟩
  obtain ⟨t, ht, hi⟩ := reader_alive (e.reach n) (e.alive n) g (hg n)
  obtain ⟨i, ht⟩ := List.mem_iff_getElem?.mp ht
  obtain ⟨m, i', k, b, h1, h2⟩ := key _ n i t (Nat.le_refl _) ht hi
  refine ⟨m, i', k, b, h1, h2, ?_⟩
  have h3 := (reads_newest (e.reach m)).2 k b (List.mem_of_getElem? h2)
  have h4 := (hg m).conn
  rw [List.getLast?_eq_getElem?, ← h3, Nat.add_sub_cancel] at h4
  exact h4

end Exec
end Verif.Conc
