import Verif.Lemmas.NetLive
import Verif.Lemmas.Reader
import Verif.Lemmas.Sched
import Verif.Props.Life
/-
From every healthy state of a network there is a fair and reliable execution.
-/
namespace Verif.Net
open Artnet Code Conc Spec Props

/-- A goroutine of a healthy host does a step that is not the failure of a system call. -/
theorem Healthy.step {P : Params} {s s' : Sys} {i : Nat} {c : Choice} (h : Healthy P s) (hx : s.exec P (.run i c) = some s')
    (hc : c ≠ .fail) : Healthy P s' := by
  have hcr : s'.crashed = none := by
    cases hf : s'.crashed with
    | none => rfl
    | some f =>
      rcases C75_panics h.tidy.reach hx hf with ⟨j, b, e, ht, _⟩ | ⟨e, _⟩ | ⟨e, _⟩ | ⟨j, e, ht, hP, hr⟩ |
        ⟨_, _, _, _, hn, _⟩
      · cases e; exact absurd (List.mem_of_getElem? ht) (h.read b)
      · cases e
      · cases e
      · exact absurd (h.rate hP) hr
      · exact absurd hn (h.calls _)
  refine ⟨h.tidy.step hx nofun, ?_, hcr, ?_, ?_, h.rate⟩
  · cases ht : s.threads[i]? with
    | none =>
      unfold Sys.exec at hx
      rw [h.alive, if_neg (by simp)] at hx
      simp only [ht] at hx
      cases hx
    | some t =>
      rw [exec_run h.alive ht] at hx
      have hf := step_frame hx
      exact ⟨hf.phase.trans h.on.1, by rw [hf.conns]; exact h.on.2⟩
  · intro b hb
    cases ht : s.threads[i]? with
    | none =>
      unfold Sys.exec at hx
      rw [h.alive, if_neg (by simp)] at hx
      simp only [ht] at hx
      cases hx
    | some t =>
      rw [exec_run h.alive ht] at hx
      have set : ∀ {t' : Thread}, (∀ b, t' ≠ .rdCheck b none) → .rdCheck b none ∉ s.threads.set i t' := by
        intro t' h' hm
        rcases List.mem_or_eq_of_mem_set hm with hm | hm
        · exact h.read b hm
        · exact h' b hm.symm
      have app : ∀ {t' t2 : Thread}, (∀ b, t' ≠ .rdCheck b none) → (∀ b, t2 ≠ .rdCheck b none) →
          .rdCheck b none ∉ s.threads.set i t' ++ [t2] := by
        intro t' t2 h' h2 hm
        rcases List.mem_append.mp hm with hm | hm
        · exact set h' hm
        · exact h2 b (List.mem_singleton.mp hm).symm
      by_cases hw : ∃ k b', t = .rdWait k b'
      · obtain ⟨k, b', rfl⟩ := hw
        cases c <;> first | (exact absurd rfl hc) | (simp only [Sys.step] at hx; first | (cases hx; done) | skip)
        split at hx
        · cases hx
          exact set (by intro _ h; cases h) hb
        · cases hx
      · have hrun := step_Run hx
        cases hrun with
        | panic => exact h.read b hb
        | move m _ =>
          refine set ?_ hb
          cases m <;> first | exact absurd ⟨_, _, rfl⟩ hw | (intro _ h; cases h)
        | pushSend k _ _ => refine set ?_ hb; cases k <;> (intro _ h; cases h)
        | call _ hk => refine set ?_ hb; cases hk <;> (intro _ h; cases h)
        | spawnReader => exact app (by intro _ h; cases h) (by intro _ h; cases h) hb
        | spawnHandler => exact app (by intro _ h; cases h) (by intro _ h; cases h) hb
        | _ => exact set (by intro _ h; cases h) hb
  · intro o
    cases ht : s.threads[i]? with
    | none =>
      unfold Sys.exec at hx
      rw [h.alive, if_neg (by simp)] at hx
      simp only [ht] at hx
      cases hx
    | some t =>
      rw [exec_run h.alive ht] at hx
      rw [(step_frame hx).callbacks]
      exact h.calls o

/-- What may have to be done: a step of a goroutine, the firing of a ticker, a delivery. -/
inductive Duty
  | go (j i : Nat) (t : Thread)
  | tick (j i : Nat)
  | gcTick (j i : Nat)
  | deliver (k m j : Nat)
  deriving DecidableEq

/-- How a duty is done, if `done` has been delivered. -/
inductive Fits (n : State) (done : List (Nat × Nat × Nat)) : Duty → Event → Prop
  | go {j i t s c} (hs : n[j]? = some s) (ht : s.threads[i]? = some t) (hr : ∀ k b, t ≠ .rdWait k b)
      (hq : (Act.run i c).quiet = true) (hf : c ≠ .fail) : Fits n done (.go j i t) (.act j (.run i c))
  | tick {j i} : Fits n done (.tick j i) (.act j (.run i .tick))
  | gcTick {j i} : Fits n done (.gcTick j i) (.act j (.run i .gcTick))
  | deliver {k m j i} (h : (k, m, j) ∉ done) : Fits n done (.deliver k m j) (.deliver k m j i)

def mark (o : Duty) (done : List (Nat × Nat × Nat)) : List (Nat × Nat × Nat) :=
  match o with
  | .deliver k m j => (k, m, j) :: done
  | _ => done

/-- A state and what has been delivered. -/
abbrev Stage := State × List (Nat × Nat × Nat)

open Classical in
noncomputable def serve (N : Setting) (x : Stage) (o : Duty) : Option Stage :=
  if h : ∃ ev, Fits x.1 x.2 o ev ∧ (N.exec x.1 ev).isSome = true then
    (N.exec x.1 h.choose).map fun n => (n, mark o x.2)
  else none

theorem serve_some {N : Setting} {x y : Stage} {o : Duty} (h : serve N x o = some y) :
    ∃ ev, Fits x.1 x.2 o ev ∧ N.exec x.1 ev = some y.1 ∧ y.2 = mark o x.2 := by
  unfold serve at h
  split at h
  · rename_i hx
    obtain ⟨n, hn, rfl⟩ := Option.map_eq_some_iff.mp h
    exact ⟨_, hx.choose_spec.1, hn, rfl⟩
  · cases h

theorem serve_isSome {N : Setting} {x : Stage} {o : Duty} {ev : Event} {n : State} (hf : Fits x.1 x.2 o ev)
    (hx : N.exec x.1 ev = some n) : (serve N x o).isSome = true := by
  have h : ∃ ev, Fits x.1 x.2 o ev ∧ (N.exec x.1 ev).isSome = true := ⟨ev, hf, by rw [hx]; rfl⟩
  unfold serve
  rw [dif_pos h, Option.isSome_map]
  exact h.choose_spec.2

/-- Everything that may have to be done. -/
def duties (x : Stage) : List Duty :=
  (x.1.zipIdx.flatMap fun y => y.1.threads.zipIdx.flatMap fun t => [.go y.2 t.2 t.1, .tick y.2 t.2, .gcTick y.2 t.2]) ++
  x.1.zipIdx.flatMap fun y => (List.range y.1.wire.length).flatMap fun m => (List.range x.1.length).map (.deliver y.2 m)

theorem run_thread {P : Params} {s s' : Sys} {i : Nat} {c : Choice} (hx : s.exec P (.run i c) = some s') :
    ∃ t, s.threads[i]? = some t := by
  unfold Sys.exec at hx
  split at hx
  · cases hx
  · simp only at hx
    cases ht : s.threads[i]? with
    | none => rw [ht] at hx; cases hx
    | some t => exact ⟨t, rfl⟩

theorem serve_duties {N : Setting} (x : Stage) (o : Duty) (h : (serve N x o).isSome = true) : o ∈ duties x := by
  obtain ⟨y, hy⟩ := Option.isSome_iff_exists.mp h
  obtain ⟨ev, hf, hx, _⟩ := serve_some hy
  obtain ⟨j', a, hl, hev⟩ := exec_hosts hx
  obtain ⟨hh, s, s', l1, l2, l3, l4, l5⟩ := local_at hl
  have run : ∀ {j i c}, ev = .act j (.run i c) → ∃ (s : Sys) (t : Thread), x.1[j]? = some s ∧ s.threads[i]? = some t := by
    intro j i c he
    rcases hev with h | ⟨k, m, i, hk, t, p, h, _⟩
    · rw [he] at h
      cases h
      obtain ⟨t, ht⟩ := run_thread l3
      exact ⟨s, t, l2, ht⟩
    · rw [he] at h; cases h
  have mem : ∀ {j i : Nat} {s : Sys} {t : Thread} {o : Duty}, x.1[j]? = some s → s.threads[i]? = some t →
      o ∈ [Duty.go j i t, .tick j i, .gcTick j i] → o ∈ duties x := by
    intro j i s t o hs ht ho
    refine List.mem_append_left _ (List.mem_flatMap.mpr ⟨(s, j), ?_, List.mem_flatMap.mpr ⟨(t, i), ?_, ho⟩⟩)
    · simpa [List.mem_zipIdx_iff_getElem?] using hs
    · simpa [List.mem_zipIdx_iff_getElem?] using ht
  cases hf with
  | go hs ht => exact mem hs ht (by simp)
  | tick => obtain ⟨s, t, h1, h2⟩ := run rfl; exact mem h1 h2 (by simp)
  | gcTick => obtain ⟨s, t, h1, h2⟩ := run rfl; exact mem h1 h2 (by simp)
  | @deliver k m j i =>
    rcases hev with h | ⟨k', m', i', hk, t, p, h, e1, e2, e3, e4, e5⟩
    · cases h
    · cases h
      refine List.mem_append_right _ (List.mem_flatMap.mpr ⟨(t, k), ?_, List.mem_flatMap.mpr ⟨m, ?_, ?_⟩⟩)
      · simpa [List.mem_zipIdx_iff_getElem?] using e2
      · exact List.mem_range.mpr (List.getElem?_eq_some_iff.mp e3).1
      · exact List.mem_map.mpr ⟨_, List.mem_range.mpr (List.getElem?_eq_some_iff.mp l2).1, rfl⟩

theorem HealthyNet.step {N : Setting} {n n' : State} {done : List (Nat × Nat × Nat)} {o : Duty} {ev : Event}
    (h : HealthyNet N n) (hf : Fits n done o ev) (hx : N.exec n ev = some n') : HealthyNet N n' := by
  obtain ⟨j', a, hl, hev⟩ := exec_hosts hx
  obtain ⟨hh, s, s', l1, l2, l3, l4, l5⟩ := local_at hl
  have ha : ∃ i c, a = .run i c ∧ c ≠ .fail := by
    rcases hev with he | ⟨k, m, i, hk, t, p, he, e1, e2, e3, e4, e5⟩
    · rw [he] at hf
      cases hf with
      | go _ _ _ _ h => exact ⟨_, _, rfl, h⟩
      | tick => exact ⟨_, _, rfl, nofun⟩
      | gcTick => exact ⟨_, _, rfl, nofun⟩
    · exact ⟨_, _, e5, nofun⟩
  obtain ⟨i, c, rfl, hc⟩ := ha
  refine ⟨(local_len hl).trans h.1, fun k hk t hhk htk => ?_⟩
  by_cases hkj : k = j'
  · subst hkj
    rw [l1] at hhk
    cases hhk
    rw [l4] at htk
    cases htk
    exact (h.2 _ _ _ l1 l2).step l3 hc
  · rw [l5 k hkj] at htk
    exact h.2 _ _ _ hhk htk

/-- A goroutine that can go on can do so without the failure of a write. -/
theorem Healthy.ready {P : Params} {s : Sys} {i : Nat} {t : Thread} (h : Healthy P s) (hr : s.ready P i t) :
    ∃ c s', (Act.run i c).quiet = true ∧ c ≠ .fail ∧ reads (.run i c) = false ∧ s.exec P (.run i c) = some s' := by
  obtain ⟨ht, hw, c, s', hq, hx⟩ := hr
  have hstep := hx
  rw [exec_run h.alive ht] at hstep
  by_cases hread : reads (.run i c) = true
  · cases c <;> first | (cases hread; done) | skip
    cases t <;> first | (exact absurd rfl (hw _ _)) | (simp [Sys.step] at hstep)
  · have hread : reads (.run i c) = false := by simpa using hread
    by_cases hf : c = .fail
    · subst hf
      obtain ⟨g, hg⟩ := on_running h.tidy h.on
      obtain ⟨k, hk⟩ := hg.conn' h.tidy
      have hopen : s.conns[k]? = some true := by
        have h1 := lastIdx_top ((life h.tidy.reach).conn ▸ hk)
        have h2 := hg.conn
        rwa [List.getLast?_eq_getElem?, ← h1, Nat.add_sub_cancel] at h2
      cases t <;> first | (exact absurd rfl (hw _ _)) | (simp [Sys.step] at hstep; done) | skip
      rename_i p
      refine ⟨.next, { s with wire := s.wire ++ [p] }.goto i .slTop, rfl, nofun, rfl, ?_⟩
      rw [exec_run h.alive ht]
      simp [Sys.step, hk, hopen]
    · exact ⟨c, s', hq, hf, hread, hx⟩

theorem run_duLock {P : Params} {s s' : Sys} {i : Nat} {t : Thread} {c : Choice} (ht : s.threads[i]? = some t)
    (h : Run P s i t c s') (hd : s'.threads[i]? = some .duLock) : t = .duLock ∨ ∃ k, t = .duWait k := by
  have hlt := (List.getElem?_eq_some_iff.mp ht).1
  have set : ∀ {t' : Thread}, (s.threads.set i t')[i]? = some .duLock → t' = .duLock := by
    intro t' h
    rw [List.getElem?_set_self hlt] at h
    exact Option.some.inj h
  have app : ∀ {t' t2 : Thread}, (s.threads.set i t' ++ [t2])[i]? = some .duLock → t' = .duLock := by
    intro t' t2 h
    rw [List.getElem?_append_left (by simpa using hlt)] at h
    exact set h
  cases h with
  | panic =>
    have hd : s.threads[i]? = some .duLock := hd
    rw [ht] at hd
    exact .inl (Option.some.inj hd)
  | move m _ =>
    have := set hd
    cases m <;> first | (cases this; done) | exact .inr ⟨_, rfl⟩
  | pushSend k _ _ =>
    have := set hd
    cases k <;> cases this
  | call _ hk =>
    have := set hd
    cases hk <;> cases this
  | spawnReader => cases app hd
  | spawnHandler => cases app hd
  | _ => cases set hd

end Verif.Net

namespace Verif.Conc.Exec
open Artnet Code Conc Spec Props Net
variable {P : Params} (e : Exec P)

/-- dmxUpdateLoop comes to its select again and again. -/
theorem du_returns (hf : e.Fair) (hc : P.controller = true) :
    ∃ j : Nat, ∀ n, ∃ m k, n ≤ m ∧ (e.state m).threads[j]? = some (.duWait k) := by
  obtain ⟨g, hg⟩ := e.running
  have hL : Loop P 7 := .inr (.inr (.inr ⟨hc, .inr rfl⟩))
  obtain ⟨t, ht, hk⟩ := loops_alive (e.reach 0) (e.alive 0) (hg 0) 7 hL
  obtain ⟨j, hj⟩ := List.mem_iff_getElem?.mp ht
  have down : ∀ (r n : Nat) (t : Thread), rk t ≤ r → (e.state n).threads[j]? = some t → kind t = 7 → t ≠ .duLock →
      ∃ m k, n ≤ m ∧ (e.state m).threads[j]? = some (.duWait k) := by
    intro r
    induction r with
    | zero =>
      intro n t h0 ht hk hn
      cases t <;> first
        | (cases hk; done) | (exact absurd rfl hn) | exact ⟨n, _, Nat.le_refl _, ht⟩
        | (simp only [rk] at h0; omega)
    | succ r ih =>
      intro n t h0 ht hk hn
      by_cases h1 : rk t = 0
      · exact ih n t (by omega) ht hk hn
      · have hrest : t.resting = false := by cases t <;> first | rfl | (exact absurd rfl h1)
        obtain ⟨m, c, hm, ht', _, hrun⟩ := e.goes_on hf hg (.inr (.inr fun g p hx => by rw [hx] at hk; cases hk)) ht hrest
        obtain ⟨t', a1, a2, a3⟩ := run_rk ((hg m).nothing_closed (e.reach m).reach).2.1 ht' hrun (e.alive _) (by omega)
        have hnl : t' ≠ .duLock := by
          rintro rfl
          rcases run_duLock ht' hrun a1 with h | ⟨k, h⟩
          · exact hn h
          · rw [h] at h1; exact h1 rfl
        obtain ⟨m', k, b1, b2⟩ := ih (m + 1) t' (by omega) a1 (a2.trans hk) hnl
        exact ⟨m', k, by omega, b2⟩
  refine ⟨j, fun n => ?_⟩
  obtain ⟨t', h1, h2⟩ := e.keeps hg hj (by rw [hk]; exact hL) (Nat.zero_le n)
  by_cases hd : t' = .duLock
  · subst hd
    obtain ⟨m, c, hm, ht', _, hrun⟩ := e.goes_on hf hg (.inr (.inr fun _ _ h => by cases h)) h1 rfl
    have hlt := (List.getElem?_eq_some_iff.mp ht').1
    have halive := e.alive (m + 1)
    have : ∃ t2, (e.state (m + 1)).threads[j]? = some t2 ∧ kind t2 = 7 ∧ t2 ≠ .duLock := by
      revert hrun halive
      generalize e.state (m + 1) = s'
      intro hrun halive
      cases hrun with
      | panic => cases halive
      | move mv _ => cases mv
      | pushSend k => cases k
      | lock hl hp => exact ⟨_, List.getElem?_set_self hlt, rfl, nofun⟩
    obtain ⟨t2, c1, c2, c3⟩ := this
    obtain ⟨m', k, b1, b2⟩ := down _ (m + 1) t2 (Nat.le_refl _) c1 c2 c3
    exact ⟨m', k, by omega, b2⟩
  · exact down _ n t' (Nat.le_refl _) h1 (h2.trans hk) hd

end Verif.Conc.Exec

namespace Verif.Net
open Artnet Code Conc Spec Props

/-- What is written again and again is written at later and later places, so a network that delivers everything delivers it
again and again. -/
theorem NetExec.lossy {N : Setting} {e : NetExec N} (h : e.Reliable) : e.FairLossy := by
  intro k j p hj hr hinf n
  obtain ⟨_, t0, ht0, _⟩ := hinf 0
  have hk : k < N.hosts.length := by
    rw [← e.length]
    exact (List.getElem?_eq_some_iff.mp ht0).1
  have hh : N.hosts[k]? = some (N.hosts[k]'hk) := List.getElem?_eq_getElem hk
  obtain ⟨n1, t, ht, hc⟩ := hinf (((e.host hh).state n).wire.length + 1)
  rw [e.host_state hh] at ht
  have hn : n ≤ n1 := by
    refine Classical.byContradiction fun hn => ?_
    obtain ⟨l, hl⟩ := (e.host hh).wire_mono (n := n1) (m := n) (by omega)
    have h1 := List.count_le_length (a := p) (l := t.wire)
    have h2 := congrArg List.length hl
    rw [ht, List.length_append] at h2
    omega
  obtain ⟨l, hl⟩ := (e.host hh).wire_mono hn
  have hp : p ∈ l := by
    have h1 := List.count_le_length (a := p) (l := ((e.host hh).state n).wire)
    rw [← ht, ← hl, List.count_append] at hc
    exact List.count_pos_iff.mp (by omega)
  obtain ⟨i, hi⟩ := List.getElem?_of_mem hp
  have hm : t.wire[((e.host hh).state n).wire.length + i]? = some p := by
    rw [← ht, ← hl, List.getElem?_append_right (by omega), Nat.add_sub_cancel_left]
    exact hi
  obtain ⟨l0, hl0⟩ := (e.host hh).wire_mono (Nat.zero_le n)
  have h0 := congrArg List.length hl0
  rw [List.length_append] at h0
  obtain ⟨n', i', hd⟩ := h k j n1 _ _ t p (e.at_host hh 0) ((e.host_state hh).mpr ht) (by omega) hm hj hr
  have hx := e.next n'
  rw [hd] at hx
  simp only [Setting.exec, hh, e.at_host hh n'] at hx
  cases hq : ((e.host hh).state n').wire[((e.host hh).state n).wire.length + i]? with
  | none => rw [hq] at hx; cases hx
  | some q =>
    have hlt := (List.getElem?_eq_some_iff.mp hq).1
    have hn' : n ≤ n' := by
      refine Classical.byContradiction fun hn' => ?_
      obtain ⟨l, hl⟩ := (e.host hh).wire_mono (n := n') (m := n) (by omega)
      have h2 := congrArg List.length hl
      rw [List.length_append] at h2
      omega
    refine ⟨n', hn', _, _, _, hd, e.at_host hh n', ?_⟩
    rw [hq]
    obtain h | h := Nat.le_total n' n1
    · obtain ⟨l, hl⟩ := (e.host hh).wire_mono h
      rw [ht] at hl
      rw [← hl, List.getElem?_append_left hlt, hq] at hm
      exact hm
    · obtain ⟨l, hl⟩ := (e.host hh).wire_mono h
      rw [ht] at hl
      rw [← hl, List.getElem?_append_left (List.getElem?_eq_some_iff.mp hm).1, hm] at hq
      exact hq.symm

/-- The scheduler of the network. -/
noncomputable def sched (N : Setting) : Sched.Sched Stage Duty := ⟨duties, serve N, id⟩

section
variable {N : Setting} {n : State}

/-- The state at time `i`. -/
noncomputable abbrev at' (N : Setting) (n : State) (i : Nat) : Stage := (sched N).state (n, []) i

theorem served' {o : Duty} (h : ∀ n', ∃ m, n' ≤ m ∧ (serve N (at' N n m) o).isSome = true) (n' : Nat) :
    ∃ m, n' ≤ m ∧ (sched N).chosen (n, []) m = some o :=
  (sched N).served serve_duties h n'

theorem healthy_run (h : HealthyNet N n) (i : Nat) : HealthyNet N (at' N n i).1 := by
  induction i with
  | zero => exact h
  | succ i ih =>
    cases hc : (sched N).chosen (n, []) i with
    | none =>
      have h1 : at' N n (i + 1) = at' N n i := (sched N).idles hc
      rw [h1]
      exact ih
    | some o =>
      have h1 : serve N (at' N n i) o = some (at' N n (i + 1)) := (sched N).does hc
      obtain ⟨ev, hf, hx, _⟩ := serve_some h1
      exact ih.step hf hx

theorem events (hne : N.hosts ≠ []) (h : HealthyNet N n) (i : Nat) : ∃ ev, N.exec (at' N n i).1 ev = some (at' N n (i + 1)).1 ∧
    (∀ o, (sched N).chosen (n, []) i = some o →
      Fits (at' N n i).1 (at' N n i).2 o ev ∧ (at' N n (i + 1)).2 = mark o (at' N n i).2) ∧
    ((sched N).chosen (n, []) i = none → ev = .act 0 rest ∧ (at' N n (i + 1)).2 = (at' N n i).2) := by
  cases hc : (sched N).chosen (n, []) i with
  | none =>
    have h1 : at' N n (i + 1) = at' N n i := (sched N).idles hc
    refine ⟨.act 0 rest, ?_, fun _ h => (nomatch h), fun _ => ⟨rfl, by rw [h1]⟩⟩
    rw [h1]
    obtain ⟨hl, hs⟩ := healthy_run h i
    cases hh : N.hosts with
    | nil => exact absurd hh hne
    | cons x l =>
      have hx : N.hosts[0]? = some x := by rw [hh]; rfl
      have hlt : 0 < (at' N n i).1.length := by rw [hl, hh]; exact Nat.zero_lt_succ _
      have hg := List.getElem?_eq_getElem hlt
      have hok := hs 0 x _ hx hg
      show (if reads rest then none else N.local _ 0 rest) = _
      rw [if_neg (by decide), Setting.local, hx, hg]
      simp only [exec_rest hok.tidy hok.on hok.alive, Option.map_some]
      congr 1
      exact List.set_getElem_self hlt
  | some o =>
    have h1 : serve N (at' N n i) o = some (at' N n (i + 1)) := (sched N).does hc
    obtain ⟨ev, hf, hx, hm⟩ := serve_some h1
    exact ⟨ev, hx, fun o' ho => by cases ho; exact ⟨hf, hm⟩, fun h => (nomatch h)⟩

/-- The execution that the scheduler makes. -/
noncomputable def made (hne : N.hosts ≠ []) (h : HealthyNet N n) : NetExec N where
  state i := (at' N n i).1
  event i := (events hne h i).choose
  len := h.1
  first j hh s h1 h2 := (h.2 j hh s h1 h2).tidy
  next i := (events hne h i).choose_spec.1
  alive i s hs := by
    obtain ⟨j, hj⟩ := List.getElem?_of_mem hs
    obtain ⟨hl, hx⟩ := healthy_run h i
    have hlt := (List.getElem?_eq_some_iff.mp hj).1
    rw [hl] at hlt
    exact (hx j _ s (List.getElem?_eq_getElem hlt) hj).alive
  session i s hs := by
    obtain ⟨j, hj⟩ := List.getElem?_of_mem hs
    obtain ⟨hl, hx⟩ := healthy_run h i
    have hlt := (List.getElem?_eq_some_iff.mp hj).1
    rw [hl] at hlt
    exact (hx j _ s (List.getElem?_eq_getElem hlt) hj).on
  tidy i j he := by
    have hs := (events hne h i).choose_spec.2
    cases hc : (sched N).chosen (n, []) i with
    | none => have := (hs.2 hc).1; rw [he] at this; cases this
    | some o =>
      have := (hs.1 o hc).1
      rw [he] at this
      cases this

variable (hne : N.hosts ≠ []) (h : HealthyNet N n)

theorem made_fits {i : Nat} {o : Duty} (hc : (sched N).chosen (n, []) i = some o) :
    Fits (at' N n i).1 (at' N n i).2 o ((made hne h).event i) ∧ (at' N n (i + 1)).2 = mark o (at' N n i).2 :=
  (events hne h i).choose_spec.2.1 o hc

theorem made_idle {i : Nat} (hc : (sched N).chosen (n, []) i = none) :
    (made hne h).event i = .act 0 rest ∧ (at' N n (i + 1)).2 = (at' N n i).2 :=
  (events hne h i).choose_spec.2.2 hc

theorem made_fair : (made hne h).Fair := by
  intro j hh i t hj hr n'
  have hs : ∀ n', ∃ m, n' ≤ m ∧ (serve N (at' N n m) (.go j i t)).isSome = true := by
    intro n'
    obtain ⟨m, hm, s, hs, hrd⟩ := hr n'
    refine ⟨m, hm, ?_⟩
    obtain ⟨c, s', c1, c2, c3, c4⟩ := ((healthy_run h m).2 j hh s hj hs).ready hrd
    refine serve_isSome (ev := .act j (.run i c)) (.go hs hrd.1 hrd.2.1 c1 c2) (n := (at' N n m).1.set j s') ?_
    show (if reads (.run i c) then none else N.local _ j (.run i c)) = _
    rw [if_neg (by rw [c3]; nofun), Setting.local, hj, show (at' N n m).1[j]? = some s from hs]
    simp only [c4, Option.map_some]
  obtain ⟨m, hm, hc⟩ := served' hs n'
  have := (made_fits hne h hc).1
  generalize hev : (made hne h).event m = ev at this
  cases this with
  | go hs ht hr hq hf => exact ⟨m, hm, _, _, hs, ht, hq, hev⟩

theorem made_writes : (made hne h).Writes := by
  intro i j i' he
  cases hc : (sched N).chosen (n, []) i with
  | none => have := (made_idle hne h hc).1; rw [he] at this; cases this
  | some o =>
    have := (made_fits hne h hc).1
    rw [he] at this
    cases this with
    | go _ _ _ _ hf => exact hf rfl

/-- What is delivered at time `i` was not delivered before and counts as delivered from then on. -/
theorem made_deliver {i k m j i' : Nat} (he : (made hne h).event i = .deliver k m j i') :
    (k, m, j) ∉ (at' N n i).2 ∧ (k, m, j) ∈ (at' N n (i + 1)).2 := by
  cases hc : (sched N).chosen (n, []) i with
  | none => have := (made_idle hne h hc).1; rw [he] at this; cases this
  | some o =>
    obtain ⟨h1, h2⟩ := made_fits hne h hc
    rw [he] at h1
    cases h1 with
    | deliver hd => exact ⟨hd, by rw [h2]; exact List.mem_cons_self⟩

include hne h in
theorem done_step (i : Nat) {x : Nat × Nat × Nat} (hx : x ∈ (at' N n i).2) : x ∈ (at' N n (i + 1)).2 := by
  cases hc : (sched N).chosen (n, []) i with
  | none => rw [(made_idle hne h hc).2]; exact hx
  | some o =>
    rw [(made_fits hne h hc).2]
    cases o <;> first | exact hx | exact List.mem_cons_of_mem _ hx

include hne h in
theorem done_mono {i i' : Nat} (hi : i ≤ i') {x : Nat × Nat × Nat} (hx : x ∈ (at' N n i).2) : x ∈ (at' N n i').2 := by
  obtain ⟨d, rfl⟩ := Nat.le.dest hi
  clear hi
  induction d with
  | zero => exact hx
  | succ d ih => exact done_step hne h _ ih

/-- Only what was delivered counts as delivered. -/
theorem done_was (i : Nat) {k m j : Nat} (hx : (k, m, j) ∈ (at' N n i).2) :
    ∃ i' i'', (made hne h).event i' = .deliver k m j i'' := by
  induction i with
  | zero => cases hx
  | succ i ih =>
    cases hc : (sched N).chosen (n, []) i with
    | none => rw [(made_idle hne h hc).2] at hx; exact ih hx
    | some o =>
      obtain ⟨h1, h2⟩ := made_fits hne h hc
      rw [h2] at hx
      cases o with
      | deliver k' m' j' =>
        rcases List.mem_cons.mp hx with hx | hx
        · cases hx
          generalize hev : (made hne h).event i = ev at h1
          cases h1 with
          | deliver hd => exact ⟨i, _, hev⟩
        · exact ih hx
      | go => exact ih hx
      | tick => exact ih hx
      | gcTick => exact ih hx

theorem made_once : (made hne h).Once := by
  intro a b k m j i i' ha hb
  obtain ⟨a1, a2⟩ := made_deliver hne h ha
  obtain ⟨b1, b2⟩ := made_deliver hne h hb
  rcases Nat.lt_trichotomy a b with hl | hl | hl
  · exact absurd (done_mono hne h hl a2) b1
  · exact hl
  · exact absurd (done_mono hne h hl b2) a1

theorem made_reliable : (made hne h).Reliable := by
  intro k j n1 m s t p _ ht _ hm hj hr
  refine Classical.byContradiction fun hno => ?_
  have hk : k < N.hosts.length := by
    rw [← (made hne h).length n1]
    exact (List.getElem?_eq_some_iff.mp ht).1
  have hhk : N.hosts[k]? = some (N.hosts[k]'hk) := List.getElem?_eq_getElem hk
  have hhj : N.hosts[j]? = some (N.hosts[j]'hj) := List.getElem?_eq_getElem hj
  have hs : ∀ n', ∃ m', n' ≤ m' ∧ (serve N (at' N n m') (.deliver k m j)).isSome = true := by
    intro n'
    obtain ⟨m', i, k', b, hm', hrd, hop⟩ :=
      ((made hne h).host hhj).reading ((made hne h).host_fair (made_fair hne h) hhj) (max n' n1)
    refine ⟨m', by omega, ?_⟩
    have hsj := (made hne h).at_host hhj m'
    have hsk := (made hne h).at_host hhk m'
    generalize ((made hne h).host hhj).state m' = sj at hrd hop hsj
    have hw : (((made hne h).host hhk).state m').wire[m]? = some p := by
      obtain ⟨l, hl⟩ := ((made hne h).host hhk).wire_mono (n := n1) (m := m') (by omega)
      rw [((made hne h).host_state hhk).mp ht] at hl
      rw [← hl, List.getElem?_append_left (List.getElem?_eq_some_iff.mp hm).1]
      exact hm
    generalize ((made hne h).host hhk).state m' = sk at hsk hw
    have halive := ((healthy_run h m').2 j _ _ hhj hsj).alive
    have hsj' : (at' N n m').1[j]? = some sj := hsj
    have hsk' : (at' N n m').1[k]? = some sk := hsk
    have hx : ∃ s', sj.exec (N.hosts[j]'hj).params (.run i (.read (N.hosts[k]'hk).addr p.data)) = some s' := by
      rw [exec_run halive hrd]
      simp only [Sys.step, hop]
      exact ⟨_, rfl⟩
    obtain ⟨s', hx⟩ := hx
    refine serve_isSome (ev := .deliver k m j i) (.deliver fun hd => ?_) (n := (at' N n m').1.set j s') ?_
    · obtain ⟨i', i'', he⟩ := done_was hne h m' hd
      exact hno ⟨i', i'', he⟩
    · simp only [Setting.exec, hhk, hsk', hw, hr, if_true, Setting.local, hhj, hsj', hx, Option.map_some]
  obtain ⟨m', _, hc⟩ := served' hs 0
  have := (made_fits hne h hc).1
  generalize hev : (made hne h).event m' = ev at this
  cases this with
  | deliver hd => exact hno ⟨m', _, hev⟩

theorem step_tick {P : Params} {s s' : Sys} {i : Nat} {t : Thread} (h : s.step P i t .tick = some s') :
    (∃ g k, t = .plWait g k) ∨ ∃ k, t = .duWait k := by
  cases t <;> first
    | exact .inl ⟨_, _, rfl⟩ | exact .inr ⟨_, rfl⟩ | (simp [Sys.step] at h; done)

theorem step_gcTick {P : Params} {s s' : Sys} {i : Nat} {t : Thread} (h : s.step P i t .gcTick = some s') :
    ∃ g k, t = .plWait g k := by
  cases t <;> first | exact ⟨_, _, rfl⟩ | (simp [Sys.step] at h; done)

/-- The tickers of a controller fire again and again. -/
theorem made_ticks {j : Nat} {hh : Host} (hj : N.hosts[j]? = some hh) (hc : hh.params.controller = true) :
    (made hne h).Ticks j := by
  have hf := (made hne h).host_fair (made_fair hne h) hj
  obtain ⟨g, hg⟩ := ((made hne h).host hj).running
  obtain ⟨ip, kp, hp⟩ := ((made hne h).host hj).pl_returns hf hg hc
  obtain ⟨id', hd⟩ := ((made hne h).host hj).du_returns hf hc
  have able : ∀ {m i : Nat} {c : Choice} {s' : Sys} {o : Duty},
      (((made hne h).host hj).state m).exec hh.params (.run i c) = some s' → reads (.run i c) = false →
      Fits (at' N n m).1 (at' N n m).2 o (.act j (.run i c)) → (serve N (at' N n m) o).isSome = true := by
    intro m i c s' o hx hr hfit
    refine serve_isSome hfit (n := (at' N n m).1.set j s') ?_
    show (if reads (.run i c) then none else N.local _ j (.run i c)) = _
    have h1 : (at' N n m).1[j]? = some (((made hne h).host hj).state m) := (made hne h).at_host hj m
    rw [if_neg (by rw [hr]; nofun), Setting.local, hj, h1]
    simp only [hx, Option.map_some]
  have halive : ∀ m, (((made hne h).host hj).state m).crashed = none := ((made hne h).host hj).alive
  have done : ∀ {m i : Nat} {c : Choice}, (made hne h).event m = .act j (.run i c) →
      ∃ t s', (((made hne h).host hj).state m).threads[i]? = some t ∧
        (((made hne h).host hj).state m).step hh.params i t c = some s' := by
    intro m i c he
    have hx := (made hne h).next m
    obtain ⟨j', a, hl, hev⟩ := exec_hosts hx
    obtain ⟨hh', s, s', l1, l2, l3, l4, l5⟩ := local_at hl
    rcases hev with e1 | ⟨_, _, _, _, _, _, e1, _⟩
    · rw [he] at e1
      cases e1
      rw [hj] at l1
      cases l1
      rw [(made hne h).at_host hj m] at l2
      cases l2
      obtain ⟨t, ht⟩ := run_thread l3
      rw [exec_run (halive m) ht] at l3
      exact ⟨t, s', ht, l3⟩
    · rw [he] at e1; cases e1
  have pl : ∀ {m i : Nat} {t : Thread}, (((made hne h).host hj).state m).threads[i]? = some t → kind t = 6 →
      ∀ {m' : Nat} {t' : Thread}, m ≤ m' → (((made hne h).host hj).state m').threads[i]? = some t' → kind t' = 6 := by
    intro m i t ht hk m' t' hm ht'
    obtain ⟨t2, h1, h2⟩ := ((made hne h).host hj).keeps hg ht (by rw [hk]; exact .inr (.inr (.inr ⟨hc, .inl rfl⟩))) hm
    rw [ht'] at h1
    cases h1
    exact h2.trans hk
  have du : ∀ {m i : Nat} {t : Thread}, (((made hne h).host hj).state m).threads[i]? = some t → kind t = 7 →
      ∀ {m' : Nat} {t' : Thread}, m ≤ m' → (((made hne h).host hj).state m').threads[i]? = some t' → kind t' = 7 := by
    intro m i t ht hk m' t' hm ht'
    obtain ⟨t2, h1, h2⟩ := ((made hne h).host hj).keeps hg ht (by rw [hk]; exact .inr (.inr (.inr ⟨hc, .inr rfl⟩))) hm
    rw [ht'] at h1
    cases h1
    exact h2.trans hk
  refine ⟨fun n' => ?_, fun n' => ?_, fun n' => ?_⟩
  · obtain ⟨m0, _, h0, _⟩ := hp 0
    obtain ⟨m, hm, hch⟩ := served' (N := N) (n := n) (o := .tick j ip) (fun n' => by
      obtain ⟨m, hm, h1, _⟩ := hp n'
      refine ⟨m, hm, able (c := .tick) (s' := ?_) ?_ rfl .tick⟩
      rotate_left
      · rw [exec_run (halive m) h1]
        exact rfl) (max n' m0)
    have := (made_fits hne h hch).1
    generalize hev : (made hne h).event m = ev at this
    cases this
    obtain ⟨t, s', d1, d2⟩ := done hev
    rcases step_tick d2 with ⟨g', k', rfl⟩ | ⟨k', rfl⟩
    · exact ⟨m, by omega, _, _, _, _, (made hne h).at_host hj m, d1, hev⟩
    · cases pl h0 rfl (by omega) d1
  · obtain ⟨m, hm, hch⟩ := served' (N := N) (n := n) (o := .gcTick j ip) (fun n' => by
      obtain ⟨m, hm, h1, _⟩ := hp n'
      refine ⟨m, hm, able (c := .gcTick) (s' := ?_) ?_ rfl .gcTick⟩
      rotate_left
      · rw [exec_run (halive m) h1]
        exact rfl) n'
    have := (made_fits hne h hch).1
    generalize hev : (made hne h).event m = ev at this
    cases this
    obtain ⟨t, s', d1, d2⟩ := done hev
    obtain ⟨g', k', rfl⟩ := step_gcTick d2
    exact ⟨m, by omega, _, _, _, _, (made hne h).at_host hj m, d1, hev⟩
  · obtain ⟨m0, _, _, h0⟩ := hd 0
    obtain ⟨m, hm, hch⟩ := served' (N := N) (n := n) (o := .tick j id') (fun n' => by
      obtain ⟨m, k, hm, h1⟩ := hd n'
      refine ⟨m, hm, able (c := .tick) (s' := ?_) ?_ rfl .tick⟩
      rotate_left
      · rw [exec_run (halive m) h1]
        exact rfl) (max n' m0)
    have := (made_fits hne h hch).1
    generalize hev : (made hne h).event m = ev at this
    cases this
    obtain ⟨t, s', d1, d2⟩ := done hev
    rcases step_tick d2 with ⟨g', k', rfl⟩ | ⟨k', rfl⟩
    · cases du h0 rfl (by omega) d1
    · exact ⟨m, by omega, _, _, _, (made hne h).at_host hj m, d1, hev⟩

end

end Verif.Net
