import Verif.Lemmas.NetLive
/-
Executions of a network that do some events and then nothing any more: a way to show that the assumptions about infinite
executions can be met.
-/
namespace Verif.Net
open Artnet Conc Packet Spec Props

/-- Start is called only when the goroutines of the session before have returned. -/
def inTimeNet (n : State) : Event → Bool
  | .act j .start => n[j]?.any fun s => s.threads.all Thread.idle
  | _ => true

def tidilyNet (N : Setting) (n : State) : List Event → Option State
  | [] => some n
  | e :: es => if inTimeNet n e then
      match N.exec n e with
      | none => none
      | some n' => tidilyNet N n' es
    else none

def TidyNet (N : Setting) (n : State) : Prop := n.length = N.hosts.length ∧
  ∀ (j : Nat) (h : Host) (s : Sys), N.hosts[j]? = some h → n[j]? = some s → TidyReach h.params s

theorem TidyNet.step {N : Setting} {n n' : State} {e : Event} (ht : TidyNet N n) (h : N.exec n e = some n')
    (hi : inTimeNet n e = true) : TidyNet N n' := by
  obtain ⟨j, a, hl, hev⟩ := exec_hosts h
  obtain ⟨hj, s, s', h1, h2, h3, h4, h5⟩ := local_at hl
  refine ⟨(local_len hl).trans ht.1, fun k hk t hhk htk => ?_⟩
  by_cases hkj : k = j
  · subst hkj
    rw [h1] at hhk
    cases hhk
    rw [h4] at htk
    cases htk
    refine (ht.2 _ _ _ h1 h2).step h3 ?_
    rintro rfl
    rcases hev with rfl | ⟨_, _, _, _, _, _, _, _, _, _, _, he⟩
    · simp only [inTimeNet, h2, Option.any_some] at hi
      exact List.all_eq_true.mp hi
    · cases he
  · rw [h5 k hkj] at htk
    exact ht.2 _ _ _ hhk htk

theorem tidyNet_init (N : Setting) : TidyNet N N.init := by
  refine ⟨List.length_map .., fun j h s hj hs => ?_⟩
  simp only [Setting.init, List.getElem?_map, hj, Option.map_some] at hs
  cases hs
  exact .init

theorem tidilyNet_tidy {N : Setting} {es : List Event} {n n' : State} (ht : TidyNet N n) (h : tidilyNet N n es = some n') :
    TidyNet N n' := by
  induction es generalizing n with
  | nil => cases h; exact ht
  | cons e es ih =>
    simp only [tidilyNet] at h
    by_cases hi : inTimeNet n e = true
    · rw [if_pos hi] at h
      cases hx : N.exec n e with
      | none => rw [hx] at h; cases h
      | some n1 =>
        rw [hx] at h
        exact ih (ht.step hx hi) h
    · rw [if_neg hi] at h; cases h

/-- The states of an execution that does the events and then nothing any more. -/
def pathNet (N : Setting) : List Event → State → Nat → State
  | [], n, _ => n
  | _ :: _, n, 0 => n
  | e :: es, n, i + 1 => pathNet N es ((N.exec n e).getD n) i

/-- Nothing happens. -/
def nothingNet : Event := .act 0 rest

/-- Every host is in a session. -/
def onNet (n : State) : Bool := n.all fun s => s.phase == .started && s.conns.getLast? == some true && s.crashed == none

/-- Neither a call of Start nor a failing write. -/
def calmNet : Event → Bool
  | .act _ .start | .act _ (.run _ .fail) => false
  | _ => true

/-- The events are possible, within one session of every host, and in the end nothing can go on. -/
def settlesNet (N : Setting) : List Event → State → Bool
  | [], n => onNet n && n.length != 0 && n.all fun s => s.control == .idle && !s.shutdown && still s
  | e :: es, n => onNet n && calmNet e && (N.exec n e).any (settlesNet N es)

theorem path_onNet {N : Setting} {es : List Event} {n : State} (h : settlesNet N es n = true) (i : Nat) :
    onNet (pathNet N es n i) = true := by
  induction es generalizing n i with
  | nil =>
    simp only [settlesNet, Bool.and_eq_true] at h
    exact h.1.1
  | cons e es ih =>
    simp only [settlesNet, Bool.and_eq_true] at h
    cases i with
    | zero => exact h.1.1
    | succ i =>
      obtain ⟨n1, hx, hs⟩ := Option.any_eq_true .. |>.mp h.2
      simp only [pathNet, hx, Option.getD_some]
      exact ih hs i

theorem path_nextNet {N : Setting} {es : List Event} {n : State} (ht : TidyNet N n) (h : settlesNet N es n = true) (i : Nat) :
    N.exec (pathNet N es n i) (es[i]?.getD nothingNet) = some (pathNet N es n (i + 1)) ∧
      calmNet (es[i]?.getD nothingNet) = true := by
  induction es generalizing n i with
  | nil =>
    simp only [settlesNet, Bool.and_eq_true, bne_iff_ne] at h
    obtain ⟨⟨h1, h2⟩, h3⟩ := h
    refine ⟨?_, rfl⟩
    have h4 := ht.1
    match n, N.hosts, h4 with
    | [], _, _ => exact absurd rfl h2
    | s :: n, [], h => cases h
    | s :: n, hh :: hs, _ =>
      have a1 := List.all_eq_true.mp h1 s (List.mem_cons_self ..)
      have a2 := List.all_eq_true.mp h3 s (List.mem_cons_self ..)
      simp only [Bool.and_eq_true, beq_iff_eq, Bool.not_eq_true'] at a1 a2
      have hh' : N.hosts[0]? = some (N.hosts[0]'(by rw [← ht.1]; simp)) := List.getElem?_eq_getElem _
      have hx : s.exec (N.hosts[0]'(by rw [← ht.1]; simp)).params rest = some s := by
        unfold Sys.exec rest
        simp [a1.2, a2.1.1, a2.1.2]
      simp only [pathNet, List.getElem?_nil, Option.getD_none, nothingNet, Setting.exec, Setting.local]
      rw [if_neg (by simp [reads, rest]), hh']
      simp [hx]
  | cons e es ih =>
    simp only [settlesNet, Bool.and_eq_true] at h
    obtain ⟨⟨_, h2⟩, h3⟩ := h
    obtain ⟨n1, hx, hs⟩ := Option.any_eq_true .. |>.mp h3
    cases i with
    | zero =>
      refine ⟨?_, h2⟩
      simp only [List.getElem?_cons_zero, Option.getD_some, pathNet, hx]
      cases es <;> rfl
    | succ i =>
      simp only [List.getElem?_cons_succ, pathNet, hx, Option.getD_some]
      refine ih (ht.step hx ?_) hs i
      unfold inTimeNet
      split
      · cases h2
      · rfl

theorem path_endNet {N : Setting} {es : List Event} {n : State} (h : settlesNet N es n = true) {i : Nat}
    (hi : es.length ≤ i) : N.execs n es = some (pathNet N es n i) ∧ ∀ s ∈ pathNet N es n i, s.crashed = none ∧ still s = true := by
  induction es generalizing n i with
  | nil =>
    simp only [settlesNet, Bool.and_eq_true] at h
    refine ⟨rfl, fun s hs => ?_⟩
    have a1 := List.all_eq_true.mp h.1.1 s hs
    have a2 := List.all_eq_true.mp h.2 s hs
    simp only [Bool.and_eq_true, beq_iff_eq] at a1 a2
    exact ⟨a1.2, a2.2⟩
  | cons e es ih =>
    simp only [settlesNet, Bool.and_eq_true] at h
    obtain ⟨n1, hx, hs⟩ := Option.any_eq_true .. |>.mp h.2
    cases i with
    | zero => cases hi
    | succ i =>
      simp only [pathNet, hx, Option.getD_some, Setting.execs]
      exact ih hs (Nat.le_of_succ_le_succ hi)

/-- Everything that the hosts have written since `n` is delivered to every host that it reaches. -/
def deliveredNet (N : Setting) (n n' : State) (es : List Event) : Bool :=
  n.zipIdx.all fun x => n'[x.2]?.any fun t => t.wire.zipIdx.all fun y => y.2 < x.1.wire.length ||
    (List.range N.hosts.length).all fun j => !N.reaches x.2 y.1.address j || es.any fun e =>
      match e with
      | .deliver k m j' _ => k == x.2 && m == y.2 && j' == j
      | _ => false

theorem deliveredNet_mem {N : Setting} {n n' : State} {es : List Event} (h : deliveredNet N n n' es = true)
    {k m j : Nat} {s t : Sys} {p : Payload} (hs : n[k]? = some s) (ht : n'[k]? = some t) (hl : s.wire.length ≤ m)
    (hp : t.wire[m]? = some p) (hj : j < N.hosts.length) (hr : N.reaches k p.address j = true) :
    ∃ i, .deliver k m j i ∈ es := by
  have h1 := List.all_eq_true.mp h (s, k) (by simpa [List.mem_zipIdx_iff_getElem?] using hs)
  simp only [ht, Option.any_some] at h1
  have h2 := List.all_eq_true.mp h1 (p, m) (by simpa [List.mem_zipIdx_iff_getElem?] using hp)
  simp only [Bool.or_eq_true, decide_eq_true_eq] at h2
  rcases h2 with h2 | h2
  · omega
  have h3 := List.all_eq_true.mp h2 j (List.mem_range.mpr hj)
  simp only [hr, Bool.not_true, Bool.false_or] at h3
  obtain ⟨e, he, h4⟩ := List.any_eq_true.mp h3
  split at h4
  · simp only [Bool.and_eq_true, beq_iff_eq] at h4
    obtain ⟨⟨rfl, rfl⟩, rfl⟩ := h4
    exact ⟨_, he⟩
  · cases h4

/-- An execution that does the events and then nothing any more is fair, if then nothing can go on, and reliable, if
everything is delivered. -/
theorem net_exists {N : Setting} {es : List Event} {n : State} (ht : TidyNet N n) (h : settlesNet N es n = true)
    (hd : (N.execs n es).any (fun n' => deliveredNet N n n' es) = true) :
    ∃ e : NetExec N, e.Fair ∧ e.Writes ∧ e.Reliable ∧ e.state = pathNet N es n ∧
      ∀ i, e.event i = es[i]?.getD nothingNet := by
  have h0 : pathNet N es n 0 = n := by cases es <;> rfl
  have hon : ∀ i, ∀ s ∈ pathNet N es n i, (s.phase = .started ∧ s.conns.getLast? = some true) ∧ s.crashed = none := by
    intro i s hs
    have := List.all_eq_true.mp (path_onNet h i) s hs
    simp only [Bool.and_eq_true, beq_iff_eq] at this
    exact this
  refine ⟨⟨pathNet N es n, fun i => es[i]?.getD nothingNet, by rw [h0]; exact ht.1, by rw [h0]; exact ht.2,
    fun i => (path_nextNet ht h i).1, fun i s hs => (hon i s hs).2, fun i s hs => (hon i s hs).1, ?_⟩, ?_, ?_, ?_, rfl,
    fun _ => rfl⟩
  · intro i j he
    have := (path_nextNet ht h i).2
    rw [he] at this
    cases this
  · intro j hj i t hjj hrd
    obtain ⟨m, hm, s, hs, hr⟩ := hrd es.length
    obtain ⟨h1, h2⟩ := (path_endNet h hm).2 s (List.mem_of_getElem? hs)
    exact absurd hr (still_not_ready h2 h1 i t)
  · intro i j i' he
    have := (path_nextNet ht h i).2
    rw [show es[i]?.getD nothingNet = _ from he] at this
    cases this
  · obtain ⟨n', hn', hd⟩ := Option.any_eq_true .. |>.mp hd
    let e : NetExec N := ⟨pathNet N es n, fun i => es[i]?.getD nothingNet, by rw [h0]; exact ht.1, by rw [h0]; exact ht.2,
      fun i => (path_nextNet ht h i).1, fun i s hs => (hon i s hs).2, fun i s hs => (hon i s hs).1, fun i j he => by
        have := (path_nextNet ht h i).2
        rw [he] at this
        cases this⟩
    intro k j i m s t p hs htk hl hp hj hr
    have hs0 : n[k]? = some s := by
      have h2 : (pathNet N es n 0)[k]? = some s := hs
      rwa [h0] at h2
    have hk : k < N.hosts.length := ht.1 ▸ (List.getElem?_eq_some_iff.mp hs0).1
    have hh : N.hosts[k]? = some (N.hosts[k]'hk) := List.getElem?_eq_getElem _
    obtain ⟨t', ht'⟩ := e.has hh (max i es.length)
    have e1 := (e.host_state hh).mp htk
    have e2 := (e.host_state hh).mp ht'
    have hp' : t'.wire[m]? = some p := by
      obtain ⟨l, hl⟩ := (e.host hh).wire_mono (Nat.le_max_left i es.length)
      rw [e1, e2] at hl
      rw [← hl, List.getElem?_append_left (List.getElem?_eq_some_iff.mp hp).1]
      exact hp
    have e3 := (path_endNet h (Nat.le_max_right i es.length)).1
    rw [e3] at hn'
    cases hn'
    obtain ⟨i', hi'⟩ := deliveredNet_mem hd (k := k) (m := m) (j := j) hs0 ht' hl hp' hj hr
    obtain ⟨u, hu⟩ := List.getElem?_of_mem hi'
    exact ⟨u, i', by show es[u]?.getD nothingNet = _; rw [hu]; rfl⟩

/-- A condition holds in every state on the way. -/
def alongNet (N : Setting) (f : State → Bool) : List Event → State → Bool
  | [], n => f n
  | e :: es, n => f n && (N.exec n e).any (alongNet N f es)

theorem along_pathNet {N : Setting} {f : State → Bool} {es : List Event} {n : State} (h : alongNet N f es n = true) (i : Nat) :
    f (pathNet N es n i) = true := by
  induction es generalizing n i with
  | nil => exact h
  | cons e es ih =>
    simp only [alongNet, Bool.and_eq_true] at h
    cases i with
    | zero => exact h.1
    | succ i =>
      obtain ⟨n1, hx, hs⟩ := Option.any_eq_true .. |>.mp h.2
      simp only [pathNet, hx, Option.getD_some]
      exact ih hs i

/-- Fair and reliable executions with a condition on the first state, one on the second and one on all. -/
theorem net_along {N : Setting} {pre es : List Event} {f g k : State → Bool}
    (h : (tidilyNet N N.init pre).any (fun n => settlesNet N es n &&
      (N.execs n es).any (fun n' => deliveredNet N n n' es) && f n && g (pathNet N es n 1) && alongNet N k es n) = true) :
    ∃ e : NetExec N, e.Fair ∧ e.Writes ∧ e.Reliable ∧ (∀ i, e.event i = es[i]?.getD nothingNet) ∧ f (e.state 0) = true ∧
      g (e.state 1) = true ∧ ∀ i, k (e.state i) = true := by
  obtain ⟨n, hn, hs⟩ := Option.any_eq_true .. |>.mp h
  simp only [Bool.and_eq_true] at hs
  obtain ⟨⟨⟨⟨h1, h2⟩, h3⟩, h4⟩, h5⟩ := hs
  obtain ⟨e, hf, hw, hr, hst, he⟩ := net_exists (tidilyNet_tidy (tidyNet_init N) hn) h1 h2
  refine ⟨e, hf, hw, hr, he, ?_, by rw [hst]; exact h4, fun i => by rw [hst]; exact along_pathNet h5 i⟩
  rw [hst, show pathNet N es n 0 = n by cases es <;> rfl]
  exact h3

end Verif.Net
