import Verif.Lemmas.FairSend
import Verif.Lemmas.ConcLin
/-
Ticks under fairness: what the update loop begins it finishes, and what it sends is written.
-/
namespace Verif.Conc
open Packet Code Artnet Spec

/-- What dmxUpdateLoop puts into sendCh for a datagram. -/
def payload (em : Emission) : Payload := ⟨em.address, em.data⟩

namespace Exec
variable {P : Params} (e : Exec P)

theorem hist_mono {n m : Nat} (h : n ≤ m) : (e.state n).hist <+: (e.state m).hist := by
  induction h with
  | refl => exact List.prefix_refl _
  | @step m _ ih =>
    refine ih.trans ?_
    rcases e.cases' m with ⟨i, t, c, _, _, h⟩ | ⟨_, l, _, h⟩
    · revert h
      generalize e.state (m + 1) = s'
      intro h
      cases h with
      | gc | ignore | reply | lock | sendDMX => exact ⟨_, rfl⟩
      | _ => exact List.prefix_refl _
    · rw [h]; exact List.prefix_refl _

/-- The datagrams of dmxUpdateLoop go into sendCh in order. -/
theorem emits {g : Nat} (hg : ∀ n, Running g (e.state n)) {n m : Nat} (h : n ≤ m) :
    ∃ es l, (e.state m).emitted = (e.state n).emitted ++ es ∧
      (e.state m).queue g Chans.enq = (e.state n).queue g Chans.enq ++ l ∧ (es.map payload).Sublist l := by
  induction h with
  | refl => exact ⟨[], [], by simp, by simp, by simp⟩
  | @step m _ ih =>
    suffices ∃ es l, (e.state (m + 1)).emitted = (e.state m).emitted ++ es ∧
        (e.state (m + 1)).queue g Chans.enq = (e.state m).queue g Chans.enq ++ l ∧ (es.map payload).Sublist l by
      obtain ⟨es, l, h1, h2, h3⟩ := ih
      obtain ⟨es', l', h4, h5, h6⟩ := this
      refine ⟨es ++ es', l ++ l', by rw [h4, h1, List.append_assoc], by rw [h5, h2, List.append_assoc], ?_⟩
      rw [List.map_append]
      exact h3.append h6
    rcases e.cases' m with ⟨i, t, c, ht, _, hrun⟩ | ⟨_, l, _, h⟩
    · have hat := latest (e.reach m) _ (List.mem_of_getElem? ht)
      have same : ∀ {s' : Sys}, s'.emitted = (e.state m).emitted →
          s'.queue g Chans.enq = (e.state m).queue g Chans.enq →
          ∃ es l, s'.emitted = (e.state m).emitted ++ es ∧
            s'.queue g Chans.enq = (e.state m).queue g Chans.enq ++ l ∧ (es.map payload).Sublist l :=
        fun h1 h2 => ⟨[], [], by rw [h1, List.append_nil], by rw [h2, List.append_nil], by simp⟩
      revert hrun
      generalize e.state (m + 1) = s'
      intro hrun
      cases hrun with
      | @pushSend _ _ t' g0 p ch k h _ =>
        have hg0 : g0 = g := by cases k <;> exact (hg m).same hat
        subst hg0
        exact ⟨[], [p], (List.append_nil _).symm, by rw [queue_eq h, queue_set_self h rfl], by simp⟩
      | @pushDmx _ g0 em pend rest now ch h _ =>
        cases (hg m).same hat
        exact ⟨[em], [payload em], rfl, by rw [queue_eq h, queue_set_self h rfl]; rfl, by simp⟩
      | popSend h | popPoll h | popRecv h | popReply h | pushRecv h | pushPoll h | pushOwn h | pushReply h =>
        exact same rfl (queue_set h rfl fun _ => rfl)
      | _ => exact same rfl rfl
    · exact ⟨[], [], by rw [h, List.append_nil], by rw [h, List.append_nil]; rfl, by simp⟩

/-- Every tick is carried out: dmxUpdateLoop takes the lock, visits the universes and releases the lock. -/
theorem tick_done (hf : e.Fair) {n i k : Nat} (ht : (e.state n).threads[i]? = some (.duWait k))
    (ha : e.act n = .run i .tick) : ∃ m j l now, n < m ∧ m < j ∧ (e.state m).lock = false ∧
      l.Perm (e.state m).ctrl.output.keys ∧ (e.state (m + 1)).hist = (e.state m).hist ++ [.tick l now] ∧
      (e.state j).lock = false := by
  obtain ⟨g, hg⟩ := e.running
  have hlt := (List.getElem?_eq_some_iff.mp ht).1
  have h1 : (e.state (n + 1)).threads[i]? = some .duLock := by
    have hx := e.next n
    rw [ha, exec_run (e.alive n) ht] at hx
    simp only [Sys.step, Option.some.injEq] at hx
    rw [← hx]
    simp [Sys.goto, hlt]
  obtain ⟨m, c, hm, _, _, hrun⟩ := e.goes_on hf hg (.inr (.inr (by nofun))) h1 rfl
  obtain ⟨j, hj, hl⟩ := e.lock_free hf hg (m + 1)
  have halive := e.alive (m + 1)
  suffices ∃ l now, (e.state m).lock = false ∧ l.Perm (e.state m).ctrl.output.keys ∧
      (e.state (m + 1)).hist = (e.state m).hist ++ [.tick l now] by
    obtain ⟨l, now, h2, h3, h4⟩ := this
    exact ⟨m, j, l, now, by omega, by omega, h2, h3, h4, hl⟩
  revert hrun halive
  generalize e.state (m + 1) = s'
  intro hrun halive
  cases hrun with
  | panic => cases halive
  | move mv _ => cases mv
  | pushSend k => cases k
  | lock hl hp => exact ⟨_, _, hl, hp, rfl⟩

end Exec
end Verif.Conc
