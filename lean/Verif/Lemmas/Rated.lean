import Verif.Spec.Sequence
import Verif.Lemmas.CtrlInv
/-
A controller without new data works alike at every frame rate.
-/
namespace Verif.Artnet
open Spec Packet Code

/-- The same controller at another rate. -/
def Ctrl.rated (c : Ctrl) (m : Int) : Ctrl := { c with maxFPS := m }

/-- No data waits to be sent. -/
def Calm (c : Ctrl) : Prop := ∀ r a b, (c.heap r).dmxBuffer.get a = some b → b.stale = false

/-- A reply or a tick. -/
def Plain : Op → Prop
  | .reply _ _ => True
  | .tick _ _ => True
  | _ => False

theorem rated_ensure (c : Ctrl) (m : Int) (a : Address) (r : Ref) :
    (c.rated m).ensureBuffer a r = (c.ensureBuffer a r).rated m := by
  unfold Ctrl.ensureBuffer
  show (match (c.heap r).dmxBuffer.get a with | none => _ | some _ => _) = _
  cases (c.heap r).dmxBuffer.get a <;> rfl

theorem rated_update (c : Ctrl) (m : Int) (r : Ref) (a : Address) (now : Int) :
    (c.rated m).update r a now = ((c.update r a now).1.rated m, (c.update r a now).2) := by
  unfold Ctrl.update
  show (match (c.heap r).dmxUpdate a with | (cn, none) => _ | (cn, some (_, some _)) => _ | (cn, some (b, none)) => _) = _
  rcases (c.heap r).dmxUpdate a with ⟨cn, _ | ⟨b, _ | e⟩⟩ <;> rfl

theorem Calm.ensure {c : Ctrl} (h : Calm c) (a : Address) (r : Ref) : Calm (c.ensureBuffer a r) := by
  unfold Ctrl.ensureBuffer
  cases hg : (c.heap r).dmxBuffer.get a with
  | some b => exact h
  | none =>
    intro x y b hb
    simp only [Ctrl.store] at hb
    split at hb
    · simp only [GoMap.get_set] at hb
      split at hb
      · cases hb; rfl
      · exact h r y b hb
    · exact h x y b hb

theorem Calm.buffer {c : Ctrl} (h : Calm c) (a : Address) (r : Ref) :
    (((c.heap r).dmxBuffer.get a).getD .zero).stale = false := by
  cases hg : (c.heap r).dmxBuffer.get a with
  | none => rfl
  | some b => exact h r a b hg

theorem Calm.tickOver {c : Ctrl} (h : Calm c) (order : List Address) (now : Int) (hn : order.Nodup) :
    Calm (c.tickOver order now).1 := by
  have t := tickOver_spec c order now hn
  intro r a b hb
  rw [t.buffer] at hb
  split at hb
  · cases hb
    unfold ticked
    split
    · rfl
    · exact h.buffer a r
  · exact h r a b hb

theorem rated_tickAt {c : Ctrl} (h : Calm c) (m : Int) (a : Address) (r : Ref) (now : Int) :
    (c.rated m).tickAt a r now = ((c.tickAt a r now).1.rated m, (c.tickAt a r now).2) := by
  have hs := (h.ensure a r).buffer a r
  simp only [Ctrl.tickAt, rated_ensure]
  generalize c.ensureBuffer a r = c at hs
  have e : ((c.rated m).heap r).dmxBuffer.get a = (c.heap r).dmxBuffer.get a := rfl
  simp only [e, hs, Bool.false_eq_true, false_and, if_false, if_true, rated_update, List.nil_append]
  split <;> rfl

theorem rated_tickOver (m : Int) (now : Int) (order : List Address) : ∀ {c : Ctrl}, Calm c →
    (c.rated m).tickOver order now = ((c.tickOver order now).1.rated m, (c.tickOver order now).2) := by
  induction order with
  | nil => intro c _; rfl
  | cons a order ih =>
    intro c h
    cases hg : c.output.get a with
    | none =>
      have e1 : (c.rated m).tickOver (a :: order) now = (c.rated m).tickOver order now := by
        simp only [Ctrl.tickOver, show (c.rated m).output.get a = none from hg]
      have e2 : c.tickOver (a :: order) now = c.tickOver order now := by simp only [Ctrl.tickOver, hg]
      rw [e1, e2]; exact ih h
    | some r =>
      have h1 : c.tickOver [a] now = c.tickAt a r now := by simp [Ctrl.tickOver, hg]
      have h2 : Calm (c.tickAt a r now).1 := by rw [← h1]; exact h.tickOver [a] now (by simp)
      simp only [Ctrl.tickOver, hg, show (c.rated m).output.get a = some r from hg, rated_tickAt h, ih h2]

theorem rated_step {c : Ctrl} (hi : Inv c) (h : Calm c) (m : Int) (o : Op) (hp : Plain o) (ho : c.CanDo o) :
    (c.rated m).step o = ((c.step o).1.rated m, (c.step o).2) ∧ Calm (c.step o).1 := by
  cases o with
  | tick order now => exact ⟨rated_tickOver m now order h, h.tickOver order now (order_nodup hi ho)⟩
  | reply p now =>
    refine ⟨?_, ?_⟩
    · show ((c.rated m).pollReply p now, []) = ((c.pollReply p now).rated m, [])
      rw [pollReply_eq, pollReply_eq]
      split
      · unfold Ctrl.updateNode
        show ((match c.nodes.find? (fun r => (configFromArtPollReply p).ip == (c.heap r).node.ip) with
          | some r => _ | none => _), []) = _
        cases c.nodes.find? (fun r => (configFromArtPollReply p).ip == (c.heap r).node.ip) <;> rfl
      · rfl
    · show Calm (c.pollReply p now)
      rw [pollReply_eq]
      split
      · rcases updateNode_cases c (configFromArtPollReply p) now with ⟨s, hk, e⟩ | ⟨hk, e⟩
        · rw [e]
          intro r a b hb
          by_cases hr : r = s
          · simp only [updatedAt, hr, if_true] at hb; exact h s a b hb
          · simp only [updatedAt, hr, if_false] at hb; exact h r a b hb
        · rw [e]
          intro r a b hb
          by_cases hr : r = c.next
          · simp only [addedNode, hr, if_true] at hb
            rw [newBuffers_get] at hb
            split at hb
            · cases hb; rfl
            · cases hb
          · simp only [addedNode, hr, if_false] at hb; exact h r a b hb
      · exact h
  | gc _ => exact hp.elim
  | send _ _ => exact hp.elim
  | restart => exact hp.elim

theorem rated_run (m : Int) (os : List Op) : ∀ {c : Ctrl}, Inv c → Calm c → (∀ o ∈ os, Plain o) → c.CanRun os →
    (c.rated m).run os = ((c.run os).1.rated m, (c.run os).2) ∧ (c.rated m).CanRun os ∧ Calm (c.run os).1 ∧
    ∀ a r, StaysRouted a r c os → StaysRouted a r (c.rated m) os := by
  induction os with
  | nil => intro c _ h _ _; exact ⟨rfl, trivial, h, fun _ _ _ => trivial⟩
  | cons o os ih =>
    intro c hi h hp hc
    obtain ⟨e, h1⟩ := rated_step hi h m o (hp o List.mem_cons_self) hc.1
    obtain ⟨e2, h2, h3, h4⟩ := ih (hi.step o hc.1) h1 (fun x hx => hp x (List.mem_cons_of_mem _ hx)) hc.2
    refine ⟨?_, ⟨?_, ?_⟩, ?_, ?_⟩
    · simp only [Ctrl.run, e, e2]
    · cases o <;> exact hc.1
    · rw [e]; exact h2
    · rw [(run_cons c o os).1]; exact h3
    · intro a r hs
      exact ⟨hs.1, by rw [e]; exact h4 a r hs.2⟩

theorem calm_init (m : Int) : Calm (Ctrl.init m) := by
  intro r a b hb
  simp [Ctrl.init, ControlledNode.none, GoMap.get] at hb

/-- `CanRun`, computed. -/
def canRunB (c : Ctrl) : List Op → Bool
  | [] => true
  | o :: os => (match o with | .tick order _ => order.isPerm c.output.keys | _ => true) && canRunB (c.step o).1 os

theorem canRunB_iff (c : Ctrl) (os : List Op) (h : canRunB c os = true) : c.CanRun os := by
  induction os generalizing c with
  | nil => trivial
  | cons o os ih =>
    simp only [canRunB, Bool.and_eq_true] at h
    refine ⟨?_, ih _ h.2⟩
    cases o <;> first | trivial | exact List.isPerm_iff.mp h.1

/-- `StaysRouted`, computed. -/
def staysB (a : Address) (r : Ref) (c : Ctrl) : List Op → Bool
  | [] => true
  | o :: os => (match o with | .tick _ _ => c.output.get a == some r | _ => true) && staysB a r (c.step o).1 os

theorem staysB_iff {a : Address} {r : Ref} (c : Ctrl) (os : List Op) (h : staysB a r c os = true) : StaysRouted a r c os := by
  induction os generalizing c with
  | nil => trivial
  | cons o os ih =>
    simp only [staysB, Bool.and_eq_true] at h
    refine ⟨?_, ih _ h.2⟩
    cases o <;> intro ht <;> first | exact ht.elim | exact eq_of_beq h.1

/-- `Spaced`, computed. -/
def spacedB (d : Int) : List Int → Bool
  | t :: u :: l => decide (t + d ≤ u) && spacedB d (u :: l)
  | _ => true

theorem spacedB_iff {d : Int} {l : List Int} (h : spacedB d l = true) : Spaced d l := by
  induction l with
  | nil => trivial
  | cons t l ih =>
    cases l with
    | nil => trivial
    | cons u l =>
      simp only [spacedB, Bool.and_eq_true, decide_eq_true_eq] at h
      exact ⟨h.1, ih h.2⟩

theorem spaced_le {d d' : Int} (hd : d ≤ d') {l : List Int} (h : Spaced d' l) : Spaced d l := by
  induction l with
  | nil => trivial
  | cons t l ih =>
    cases l with
    | nil => trivial
    | cons u l => exact ⟨by have := h.1; omega, ih h.2⟩

end Verif.Artnet
