import Verif.Lemmas.ConcTidy
/-
While the node runs, the loops started by Start are alive.
-/
namespace Verif.Conc
open Packet Code Artnet Spec

/-- Which loop a program counter belongs to. -/
def kind : Thread → Nat
  | .prInit | .prTop _ | .prWait _ _ | .prGot _ | .prSend _ _ => 1
  | .slTop | .slWait _ | .slCheck _ | .slWrite _ => 2
  | .rlInit | .rlTop | .rlWait _ | .rlParse _ => 3
  | .rdTop _ | .rdWait _ _ | .rdCheck _ _ | .rdGot _ _ | .rdPush _ _ _ => 4
  | .hStart _ | .hPollTop _ | .hPoll _ _ | .hReplyTop _ | .hReply _ _ => 5
  | .plSendTop | .plSend _ | .plPollTop | .plPoll _ | .plTop | .plWait _ _ | .plGc | .plGot _ => 6
  | .duInit | .duTop | .duWait _ | .duLock | .duTick _ _ _ | .duSend _ _ _ _ _ => 7
  | .caller _ _ => 8
  | .done => 0

/-- The loops that live as long as the session. -/
def Loop (P : Params) (κ : Nat) : Prop := κ = 1 ∨ κ = 2 ∨ κ = 3 ∨ (P.controller = true ∧ (κ = 6 ∨ κ = 7))

/-- A controller has as many shutdown channels of its own as sets of channels, if Start gets that far at all. -/
theorem cdown_length {P : Params} {s : Sys} (h : Reach P s) (hv : P.config.validate = .ok none)
    (hc : P.controller = true) : s.cdown.length = s.chans.length := by
  refine Reach.induct (P := P) (I := fun s => s.cdown.length = s.chans.length) rfl ?_ h
  intro s s' _ ha _ hst
  cases hst with
  | startFail _ hx => rw [hv] at hx; cases hx
  | startPanic _ hx => rw [hv] at hx; cases hx
  | start _ _ => simp only [Sys.reset, Sys.makeChannels, Sys.resetTables, if_pos hc]; simp [ha]
  | _ => first | exact ha | (simp only [Sys.goto, Sys.setCh, List.length_set]; exact ha)

/-- A session is on; its channels have index `g`. -/
structure Running (g : Nat) (s : Sys) : Prop where
  phase : s.phase = .started
  conn : s.conns.getLast? = some true
  top : s.chans.length = g + 1

theorem frame_length {s s' : Sys} (f : Frame s s') : s'.chans.length = s.chans.length := by
  have := congrArg List.length f.down
  simpa only [List.length_map] using this

theorem Running.frame {g : Nat} {s s' : Sys} (h : Running g s) (f : Frame s s') : Running g s' :=
  ⟨f.phase.trans h.phase, by rw [f.conns]; exact h.conn, (frame_length f).trans h.top⟩

theorem Running.same {g : Nat} {s : Sys} (h : Running g s) {k : Nat} (hk : k + 1 = s.chans.length) : k = g := by
  have := h.top; omega

theorem on_running {P : Params} {s : Sys} (h : TidyReach P s) (hon : s.on) : ∃ g, Running g s := by
  obtain ⟨c0, h0, _⟩ := (life h.reach).started hon.1
  refine ⟨s.chans.length - 1, hon.1, hon.2, ?_⟩
  cases hcs : s.chans with
  | nil => rw [hcs] at h0; cases h0
  | cons _ _ => simp

/-- While the node runs nothing is closed. -/
theorem Running.nothing_closed {P : Params} {g : Nat} {s : Sys} (hr : Reach P s) (hR : Running g s) :
    (∀ {ch : Chans}, s.chans[g]? = some ch → ch.down = false) ∧ s.shutdown = false ∧
    (P.controller = true → s.cdown.getLast? = some false) := by
  have hlf := life hr
  obtain ⟨c0, h0, hd0⟩ := hlf.started hR.phase
  refine ⟨?_, ?_, fun hc => hlf.copen hc c0 h0 hd0⟩
  · intro ch hg
    rw [List.getLast?_eq_getElem?, hR.top, Nat.add_sub_cancel, hg] at h0
    cases h0
    exact hd0
  · cases hs : s.shutdown with
    | false => rfl
    | true => exact absurd hR.phase (hlf.shut.mp hs)

/-- The goroutine stays in its loop, unless something was closed. -/
theorem run_kind {P : Params} {g : Nat} {s s' : Sys} {i : Nat} {t : Thread} {c : Choice} (hr : TidyReach P s)
    (hR : Running g s) (ht : s.threads[i]? = some t) (hk : Loop P (kind t)) (h : Run P s i t c s') :
    s'.crashed ≠ none ∨ ∃ t' l, s'.threads = s.threads.set i t' ++ l ∧ kind t' = kind t := by
  obtain ⟨h1, h2, h3⟩ := hR.nothing_closed hr.reach
  have hat := latest hr _ (List.mem_of_getElem? ht)
  have hc : kind t = 6 ∨ kind t = 7 → P.controller = true := by
    unfold Loop at hk
    intro h
    rcases hk with hk | hk | hk | hk <;> first | exact hk.1 | omega
  have noDown : ∀ {k : Nat} {ch : Chans}, k + 1 = s.chans.length → s.chans[k]? = some ch → ch.down = true → False := by
    intro k ch hk hg hd
    cases hR.same hk
    rw [h1 hg] at hd; cases hd
  have noEnd : ∀ {k : Nat}, P.controller = true → k + 1 = s.cdown.length → s.cdown[k]? = some true → False := by
    intro k hP hk hg
    have := h3 hP
    rw [List.getLast?_eq_getElem?, ← hk, Nat.add_sub_cancel, hg] at this
    cases this
  have noStop : s.shutdown = true → False := by rw [h2]; nofun
  have stay : ∀ {t' : Thread}, kind t' = kind t →
      ∃ t'' l, s.threads.set i t' = s.threads.set i t'' ++ l ∧ kind t'' = kind t := by
    intro t' he
    exact ⟨t', [], (List.append_nil _).symm, he⟩
  cases h with
  | panic => exact .inl nofun
  | move m _ =>
    refine .inr ?_
    cases m <;> first | exact stay rfl | exact (noDown hat (by assumption) (by assumption)).elim |
      exact (noStop (by assumption)).elim | exact (noEnd (hc (by simp [kind])) hat (by assumption)).elim |
      exact (noEnd (hc (by simp [kind])) hat.2 (by assumption)).elim
  | pushSend k _ _ => refine .inr (stay ?_); cases k <;> rfl
  | spawnReader => exact .inr ⟨.rlTop, _, rfl, rfl⟩
  | spawnHandler => exact .inr ⟨.rlTop, _, rfl, rfl⟩
  | lose hd => rw [h2] at hd; cases hd
  | call _ hcl => simp only [Loop, kind] at hk; omega
  | drop => simp only [Loop, kind] at hk; omega
  | pushPoll => simp only [Loop, kind] at hk; omega
  | pushReply => simp only [Loop, kind] at hk; omega
  | sendDMX => simp only [Loop, kind] at hk; omega
  | _ => exact .inr (stay rfl)

theorem Reach.inductExec {P : Params} {I : Sys → Prop} (h0 : I (Sys.init P))
    (hs : ∀ s s' a, Reach P s → I s → s.exec P a = some s' → I s') {s : Sys} (h : Reach P s) : I s := by
  obtain ⟨as, ha⟩ := h
  suffices ∀ as s0, Reach P s0 → I s0 → s0.execs P as = some s → I s from
    this as _ (Reach.init P) h0 ha
  intro as
  induction as with
  | nil => intro s0 _ hi he; cases he; exact hi
  | cons a as ih =>
    intro s0 hr hi he
    simp only [Sys.execs] at he
    cases hx : s0.exec P a with
    | none => rw [hx] at he; cases he
    | some s1 =>
      rw [hx] at he
      exact ih s1 (hr.exec hx) (hs s0 s1 a hr hi hx) he

theorem idle_kind {t : Thread} (h : t.idle = true) : kind t = 0 ∨ kind t = 8 := by
  cases t <;> first | exact .inl rfl | exact .inr rfl | cases h

/-- While a session is on its loops are alive, and Start finds no open connection. -/
theorem alive {P : Params} {s : Sys} (h : TidyReach P s) : s.crashed = none →
    (s.control = .listening → s.conns.getLast? ≠ some true) ∧
    (∀ g, Running g s → ∀ κ, Loop P κ → ∃ t ∈ s.threads, kind t = κ) := by
  induction h with
  | init => exact fun _ => ⟨nofun, fun _ hR => by cases hR.phase⟩
  | @step s s' a hr hx htidy ih =>
  intro hcr'
  have hcr := (exec_Step hx).1
  obtain ⟨ihl, ih⟩ := ih hcr
  have hlf := life hr.reach
  have add : ∀ {l g κ}, s'.threads = s.threads ++ l → Loop P κ → Running g s → ∃ t ∈ s'.threads, kind t = κ := by
    intro l g κ hl hκ hR
    obtain ⟨t, ht, hk⟩ := ih g hR κ hκ
    exact ⟨t, by rw [hl]; exact List.mem_append_left _ ht, hk⟩
  cases a with
  | run i c =>
    cases ht : s.threads[i]? with
    | none =>
      unfold Sys.exec at hx
      rw [hcr, if_neg (by simp)] at hx
      simp only [ht] at hx
      cases hx
    | some t =>
      rw [exec_run hcr ht] at hx
      have hf := step_frame hx
      refine ⟨by rw [hf.control, hf.conns]; exact ihl, fun g hR' κ hκ => ?_⟩
      have hR : Running g s := ⟨hf.phase.symm.trans hR'.phase, by rw [← hf.conns]; exact hR'.conn,
        (frame_length hf).symm.trans hR'.top⟩
      obtain ⟨u, hu, hku⟩ := ih g hR κ hκ
      obtain ⟨j, hj⟩ := List.mem_iff_getElem?.mp hu
      have hrun := step_Run hx
      by_cases hij : i = j
      · subst hij
        rw [ht] at hj
        cases hj
        rcases run_kind hr hR ht (by rw [hku]; exact hκ) hrun with hc | ⟨t', l, hl, hk⟩
        · exact absurd hcr' hc
        · refine ⟨t', ?_, hk.trans hku⟩
          rw [hl]
          exact List.mem_append_left _ (List.mem_set (List.getElem?_eq_some_iff.mp ht).1 t')
      · have hjlt := (List.getElem?_eq_some_iff.mp hj).1
        have old : ∀ {t' l}, s'.threads = s.threads.set i t' ++ l → ∃ t ∈ s'.threads, kind t = κ := by
          intro t' l hl
          refine ⟨u, List.mem_of_getElem? (i := j) ?_, hku⟩
          rw [hl, List.getElem?_append_left (by simpa using hjlt), List.getElem?_set_ne hij]
          exact hj
        have old0 : ∀ {t'}, s'.threads = s.threads.set i t' → ∃ t ∈ s'.threads, kind t = κ := by
          intro t' hl
          exact old (l := []) (by rw [List.append_nil]; exact hl)
        cases hrun with
        | panic => exact ⟨u, hu, hku⟩
        | spawnReader => exact old rfl
        | spawnHandler => exact old rfl
        | _ => exact old0 rfl
  | start =>
    have hidle := htidy rfl
    unfold Sys.exec at hx
    rw [hcr, if_neg (by simp)] at hx
    simp only at hx
    split at hx
    · cases hx
    rename_i hctl
    have hctl : s.control = .idle := by simpa using hctl
    -- the goroutines have returned, so there is no open connection
    have hno : s.conns.getLast? ≠ some true := by
      intro hc
      cases hp : s.phase with
      | fresh => rw [(hlf.fresh hp).2] at hc; cases hc
      | started =>
        obtain ⟨c0, h0, _⟩ := hlf.started hp
        have hlen : s.chans.length = s.chans.length - 1 + 1 := by
          cases hcs : s.chans with
          | nil => rw [hcs] at h0; cases h0
          | cons _ _ => simp
        obtain ⟨t, ht, hk⟩ := ih _ ⟨hp, hc, hlen⟩ 1 (.inl rfl)
        have := idle_kind (hidle t ht)
        omega
      | stopping => have := hlf.stopping.mp hp; rw [hctl] at this; simp at this
      | stopped =>
        have hn : s.conn = some (s.conns.length - 1) := by
          rw [hlf.conn, lastIdx, if_neg]
          intro h; rw [List.length_eq_zero_iff.mp h] at hc; cases hc
        have := hlf.unplugged (.inr hp) _ hn
        rw [← List.getLast?_eq_getElem?, hc] at this
        cases this
    have e1 : (if P.controller = true then s.resetTables else s).conns = s.conns := by split <;> rfl
    have hno' : s'.conns = s.conns := by
      split at hx <;> cases hx <;> exact e1
    exact ⟨fun _ => by rw [hno']; exact hno, fun g hR => absurd (hno' ▸ hR.conn) hno⟩
  | listen ok =>
    unfold Sys.exec at hx
    rw [hcr, if_neg (by simp)] at hx
    simp only at hx
    split at hx
    · cases hx
    rename_i hctl
    have hctl : s.control = .listening := by simpa using hctl
    split at hx
    · cases hx
      refine ⟨nofun, fun g _ κ hκ => ?_⟩
      have hg : ∃ t ∈ P.goroutines, kind t = κ := by
        rcases hκ with rfl | rfl | rfl | ⟨hc, rfl | rfl⟩
        · exact ⟨.prInit, by simp [Params.goroutines], rfl⟩
        · exact ⟨.slTop, by simp [Params.goroutines], rfl⟩
        · exact ⟨.rlInit, by simp [Params.goroutines], rfl⟩
        · exact ⟨.plSendTop, by simp [Params.goroutines, hc], rfl⟩
        · exact ⟨.duInit, by simp [Params.goroutines, hc], rfl⟩
      obtain ⟨t, ht, hk⟩ := hg
      exact ⟨t, List.mem_append_right _ ht, hk⟩
    · cases hx
      exact ⟨nofun, fun g hR => absurd hR.conn (ihl hctl)⟩
  | stop =>
    unfold Sys.exec at hx
    rw [hcr, if_neg (by simp)] at hx
    simp only at hx
    split at hx
    · cases hx
    split at hx
    · cases hx; cases hcr'
    · cases hx; exact ⟨nofun, fun g hR => by cases hR.phase⟩
  | stopStep =>
    have hph : s.phase = .stopping := by
      refine hlf.stopping.mpr ?_
      unfold Sys.exec at hx
      rw [hcr, if_neg (by simp)] at hx
      simp only at hx
      split at hx <;> first | (rename_i h; simp [h]; done) | (cases hx; done)
    unfold Sys.exec at hx
    rw [hcr, if_neg (by simp)] at hx
    simp only at hx
    split at hx
    · split at hx
      · cases hx; cases hcr'
      · split at hx
        · cases hx; cases hcr'
        · split at hx
          · cases hx; cases hcr'
          · cases hx; exact ⟨nofun, fun g hR => by have := hR.phase; rw [hph] at this; cases this⟩
    · split at hx
      · cases hx; exact ⟨nofun, fun g hR => by have := hR.phase; rw [hph] at this; cases this⟩
      · cases hx; exact ⟨nofun, fun g hR => by cases hR.phase⟩
    · split at hx
      · cases hx; cases hcr'
      · split at hx
        · cases hx; cases hcr'
        · cases hx; exact ⟨nofun, fun g hR => by cases hR.phase⟩
    · cases hx
  | register o h =>
    unfold Sys.exec at hx
    rw [hcr, if_neg (by simp)] at hx
    simp only at hx
    split at hx
    · cases hx
    split at hx <;> cases hx <;>
      exact ⟨ihl, fun g hR κ hκ => add (l := []) (g := g) (List.append_nil _).symm hκ ⟨hR.1, hR.2, hR.3⟩⟩
  | deregister o =>
    unfold Sys.exec at hx
    rw [hcr, if_neg (by simp)] at hx
    simp only at hx
    split at hx
    · cases hx
    split at hx <;> cases hx <;>
      exact ⟨ihl, fun g hR κ hκ => add (l := []) (g := g) (List.append_nil _).symm hκ ⟨hR.1, hR.2, hR.3⟩⟩
  | call d x =>
    unfold Sys.exec at hx
    rw [hcr, if_neg (by simp)] at hx
    simp only at hx
    split at hx
    · cases hx
      exact ⟨ihl, fun g hR κ hκ => add (g := g) rfl hκ ⟨hR.1, hR.2, hR.3⟩⟩
    · cases hx

theorem loops_alive {P : Params} {g : Nat} {s : Sys} (h : TidyReach P s) (hcr : s.crashed = none)
    (hR : Running g s) : ∀ κ, Loop P κ → ∃ t ∈ s.threads, kind t = κ := (alive h hcr).2 g hR

theorem kind_sl {t : Thread} : isSl t = true ↔ kind t = 2 := by cases t <;> simp [isSl, kind]

end Verif.Conc
