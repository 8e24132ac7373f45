import Verif.Spec.NetFair
import Verif.Lemmas.Net
import Verif.Lemmas.FairTick
/-
Every host of a network execution by itself is an execution of the library.
-/
namespace Verif.Net
open Artnet Conc Packet Spec

/-- A read that returns is an arrival. -/
theorem exec_read {P : Params} {s s' : Sys} {i : Nat} {src : UDPAddr} {d : Bytes}
    (h : s.exec P (.run i (.read src d)) = some s') : s'.arrived = s.arrived ++ [⟨src, d⟩] := by
  unfold Sys.exec at h
  split at h
  · cases h
  dsimp only at h
  split at h
  · cases h
  rename_i t _
  cases t with
  | rdWait k b =>
    simp only [Sys.step] at h
    split at h
    · cases h; rfl
    · cases h
  | _ => simp [Sys.step] at h

theorem local_len {N : Setting} {n n' : State} {j : Nat} {a : Act} (h : N.local n j a = some n') : n'.length = n.length := by
  unfold Setting.local at h
  split at h
  case h_2 => cases h
  obtain ⟨_, _, rfl⟩ := Option.map_eq_some_iff.mp h
  exact List.length_set

/-- What an event does to the hosts. -/
theorem exec_hosts {N : Setting} {n n' : State} {e : Event} (h : N.exec n e = some n') :
    ∃ j a, N.local n j a = some n' ∧
      (e = .act j a ∨ ∃ k m i hk t p, e = .deliver k m j i ∧ N.hosts[k]? = some hk ∧ n[k]? = some t ∧ t.wire[m]? = some p ∧
        N.reaches k p.address j = true ∧ a = .run i (.read hk.addr p.data)) := by
  unfold Setting.exec at h
  split at h
  · split at h
    · cases h
    · exact ⟨_, _, h, .inl rfl⟩
  · split at h
    · rename_i hh s hk hs
      split at h
      · cases h
      · rename_i p hp
        split at h
        · rename_i hr
          exact ⟨_, _, h, .inr ⟨_, _, _, _, _, _, rfl, hk, hs, hp, hr, rfl⟩⟩
        · cases h
    · cases h

theorem local_at {N : Setting} {n n' : State} {j : Nat} {a : Act} (h : N.local n j a = some n') :
    ∃ hj s s', N.hosts[j]? = some hj ∧ n[j]? = some s ∧ s.exec hj.params a = some s' ∧ n'[j]? = some s' ∧
      ∀ k, k ≠ j → n'[k]? = n[k]? := by
  unfold Setting.local at h
  split at h
  case h_2 => cases h
  rename_i hj s hhj hsj
  obtain ⟨s', hs', rfl⟩ := Option.map_eq_some_iff.mp h
  exact ⟨hj, s, s', hhj, hsj, hs', List.getElem?_set_self (List.getElem?_eq_some_iff.mp hsj).1,
    fun k hk => List.getElem?_set_ne (Ne.symm hk)⟩

/-- Nothing changes when RegisterCallback is called within a session. -/
theorem exec_rest {P : Params} {s : Sys} (hr : TidyReach P s) (hon : s.on) (hc : s.crashed = none) :
    s.exec P rest = some s := by
  obtain ⟨g, hg⟩ := on_running hr hon
  have h1 := (hg.nothing_closed hr.reach).2.1
  have hlf := life hr.reach
  have h2 : s.control = .idle := by
    cases hcc : s.control with
    | idle => rfl
    | listening => exact absurd hon.2 ((Conc.alive hr hc).1 hcc)
    | closing => have := hlf.stopping.mpr (.inl hcc); rw [hon.1] at this; cases this
    | disconnecting => have := hlf.stopping.mpr (.inr (.inl hcc)); rw [hon.1] at this; cases this
    | ending => have := hlf.stopping.mpr (.inr (.inr hcc)); rw [hon.1] at this; cases this
  unfold Sys.exec rest
  simp [hc, h1, h2]

namespace NetExec
variable {N : Setting} (e : NetExec N)

theorem length (n : Nat) : (e.state n).length = N.hosts.length := by
  induction n with
  | zero => exact e.len
  | succ n ih =>
    obtain ⟨j, a, h, _⟩ := exec_hosts (e.next n)
    rw [local_len h, ih]

theorem has {j : Nat} {h : Host} (hj : N.hosts[j]? = some h) (n : Nat) : ∃ s, (e.state n)[j]? = some s := by
  have h1 := (List.getElem?_eq_some_iff.mp hj).1
  rw [← e.length n] at h1
  exact ⟨_, List.getElem?_eq_getElem h1⟩

/-- What happens at host `j`, without knowing that it is reachable. -/
theorem moves {j : Nat} {h : Host} (hj : N.hosts[j]? = some h) (n : Nat) {s s' : Sys} (hs : (e.state n)[j]? = some s)
    (hs' : (e.state (n + 1))[j]? = some s') :
    (s.exec h.params (e.act j n) = some s' ∧ e.act j n ≠ .start) ∨ (s' = s ∧ e.act j n = rest) := by
  obtain ⟨j', a, hl, hev⟩ := exec_hosts (e.next n)
  obtain ⟨hh, t, t', l1, l2, l3, l4, l5⟩ := local_at hl
  by_cases hjj : j' = j
  · subst hjj
    left
    rw [hj] at l1
    cases l1
    rw [hs] at l2
    cases l2
    rw [hs'] at l4
    cases l4
    have ha : e.act j' n = a := by
      rcases hev with he | ⟨k, m, i, hk, t, p, he, e1, e2, e3, e4, e5⟩
      · simp only [act, he, if_true]
      · simp only [act, he, if_true, e1, e2, e3, e5]
    rw [ha]
    refine ⟨l3, ?_⟩
    rintro rfl
    rcases hev with he | ⟨k, m, i, hk, t, p, he, e1, e2, e3, e4, e5⟩
    · exact e.tidy n _ he
    · cases e5
  · right
    have := l5 j (Ne.symm hjj)
    rw [hs, hs'] at this
    refine ⟨Option.some.inj this, ?_⟩
    rcases hev with he | ⟨k, m, i, hk, t, p, he, _⟩
    · simp only [act, he, if_neg hjj]
    · simp only [act, he, if_neg hjj]

theorem tidyReach {j : Nat} {h : Host} (hj : N.hosts[j]? = some h) (n : Nat) : ∀ s, (e.state n)[j]? = some s →
    TidyReach h.params s := by
  induction n with
  | zero => exact fun s hs => e.first j h s hj hs
  | succ n ih =>
    intro s' hs'
    obtain ⟨s, hs⟩ := e.has hj n
    rcases e.moves hj n hs hs' with ⟨h1, h2⟩ | ⟨h1, _⟩
    · exact (ih s hs).step h1 fun h => absurd h h2
    · rw [h1]; exact ih s hs

/-- Host `j` by itself. -/
def host {j : Nat} {h : Host} (hj : N.hosts[j]? = some h) : Exec h.params where
  state n := (e.state n)[j]?.getD (Sys.init h.params)
  act := e.act j
  first := by
    obtain ⟨s, hs⟩ := e.has hj 0
    rw [hs]
    exact e.first j h s hj hs
  next n := by
    obtain ⟨s, hs⟩ := e.has hj n
    obtain ⟨s', hs'⟩ := e.has hj (n + 1)
    rw [hs, hs']
    rcases e.moves hj n hs hs' with ⟨h1, _⟩ | ⟨h1, h2⟩
    · exact h1
    · rw [h2, h1]
      exact exec_rest (e.tidyReach hj n s hs) (e.session n s (List.mem_of_getElem? hs)) (e.alive n s (List.mem_of_getElem? hs))
  tidy n ha := by
    obtain ⟨s, hs⟩ := e.has hj n
    obtain ⟨s', hs'⟩ := e.has hj (n + 1)
    rcases e.moves hj n hs hs' with ⟨_, h2⟩ | ⟨_, h2⟩
    · exact absurd ha h2
    · rw [h2] at ha; cases ha
  session n := by
    obtain ⟨s, hs⟩ := e.has hj n
    rw [hs]
    exact e.session n s (List.mem_of_getElem? hs)

theorem host_state {j : Nat} {h : Host} (hj : N.hosts[j]? = some h) {n : Nat} {s : Sys} :
    (e.state n)[j]? = some s ↔ (e.host hj).state n = s := by
  obtain ⟨s', hs'⟩ := e.has hj n
  show _ ↔ (e.state n)[j]?.getD (Sys.init h.params) = s
  rw [hs']
  simp

theorem at_host {j : Nat} {h : Host} (hj : N.hosts[j]? = some h) (n : Nat) :
    (e.state n)[j]? = some ((e.host hj).state n) := (e.host_state hj).mpr rfl

/-- A delivery is an arrival. -/
theorem arrives {k j n : Nat} {hk h : Host} {p : Payload} (hhk : N.hosts[k]? = some hk) (hj : N.hosts[j]? = some h)
    (hd : e.delivers k p j n) :
    ((e.host hj).state (n + 1)).arrived = ((e.host hj).state n).arrived ++ [⟨hk.addr, p.data⟩] := by
  obtain ⟨m, i, t, h1, h2, h3⟩ := hd
  have hx := (e.host hj).next n
  have ha : (e.host hj).act n = .run i (.read hk.addr p.data) := by
    show e.act j n = _
    simp only [act, h1, if_true, hhk, h2, h3]
  rw [ha] at hx
  exact exec_read hx

theorem host_fair (hf : e.Fair) {j : Nat} {h : Host} (hj : N.hosts[j]? = some h) : (e.host hj).Fair := by
  intro i t hrd n
  obtain ⟨m, hm, s, c, h1, h2, h3, h4⟩ := hf j h i t hj (fun n => by
    obtain ⟨m, hm, hr⟩ := hrd n
    exact ⟨m, hm, _, e.at_host hj m, hr⟩) n
  rw [e.host_state hj] at h1
  refine ⟨m, hm, by rw [h1]; exact h2, c, h3, ?_⟩
  show e.act j m = _
  simp only [act, h4, if_true]

theorem host_writes (hw : e.Writes) {j : Nat} {h : Host} (hj : N.hosts[j]? = some h) : (e.host hj).writes := by
  intro n i p _ ha0
  have ha : e.act j n = .run i .fail := ha0
  clear ha0
  unfold act at ha
  split at ha
  · rename_i j' a he
    split at ha
    · rw [ha] at he
      exact hw n _ _ he
    · cases ha
  · split at ha
    · split at ha
      · split at ha <;> cases ha
      · cases ha
    · cases ha

end NetExec

end Verif.Net
