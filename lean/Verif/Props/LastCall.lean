import Verif.Lemmas.LastCall
import Verif.Props.Buffers
import Verif.Props.Sequence
import Verif.Props.Linear
/-
The data in every ArtDMX datagram, told by the calls of SendDMXToAddress: C155, and C121 exactly.
-/
namespace Verif.Props
open Spec Packet Code Artnet Conc

/-- C155: the channels in a datagram sent at a tick are those of the last call of SendDMXToAddress for the universe that
reached the node, or zero if there was none. A call reaches the node if the universe is routed to it and the node claimed
it when it was added to the table, or some tick before found it routed there. -/
theorem C155_last_call (m : Int) (os : List Op) (order : List Address) (now : Int)
    (h : (Ctrl.init m).CanRun (os ++ [.tick order now])) :
    ∀ e ∈ ((stateAfter m os).step (.tick order now)).2,
    (∃ xs d ys, os = xs ++ .send d (emAddress e) :: ys ∧ Reaches m xs (emAddress e) e.ref ∧ emChannels e = d.val ∧
      ∀ xs' d' ys', os = xs' ++ .send d' (emAddress e) :: ys' → Reaches m xs' (emAddress e) e.ref →
        xs'.length ≤ xs.length) ∨
    (emChannels e = List.replicate 512 0 ∧
      ∀ xs d ys, os = xs ++ .send d (emAddress e) :: ys → ¬ Reaches m xs (emAddress e) e.ref) := by
  intro e he
  obtain ⟨h1, h2⟩ := canRun_snoc h
  have hd := (data_step (inv_after h1) (.tick order now) h2 (a := emAddress e) id).2 e he rfl
  rcases data_last m (emAddress e) e.ref os h1 with ⟨xs, d, ys, g1, g2, g3, g4⟩ | ⟨g1, g2⟩
  · exact .inl ⟨xs, d, ys, g1, g2, by rw [hd, g3], g4⟩
  · exact .inr ⟨by rw [hd, g1], g2⟩

/-- A call that reaches its node, and one that comes before the node is known. -/
def twoCalls : List Op := [.send fullOn (uni 1), .reply (replyOf ipA 1) 0, .send (Arr.zero 512) (uni 1),
  .send fullOn (uni 1)]

example : (Ctrl.init 40).CanRun (twoCalls ++ [.tick [uni 1] 1000000000]) ∧
    (((stateAfter 40 twoCalls).step (.tick [uni 1] 1000000000)).2.map fun e => (emAddress e, emChannels e, e.ref)) =
      [(uni 1, fullOn.val, 0)] ∧
    (stateAfter 40 [.send fullOn (uni 1), .reply (replyOf ipA 1) 0]).output.get (uni 1) = some 0 ∧
    (stateAfter 40 []).output.get (uni 1) = none :=
  ⟨canRunB_iff _ _ (by decide +kernel), by decide +kernel, by decide +kernel, rfl⟩

/-- C155 under every schedule of the goroutines: each ArtDMX datagram on the wire was made at a tick, and its channels
are those of the last call before that tick that reached the node, or zero. The history `s.hist` is the order in which the
critical sections were done. -/
theorem C155_wire {P : Params} {s : Sys} (h : Reach P s) : ∀ e ∈ s.emitted,
    ∃ pre order now post, s.hist = pre ++ .tick order now :: post ∧
    ((∃ xs d ys, pre = xs ++ .send d (emAddress e) :: ys ∧ Reaches P.maxFPS xs (emAddress e) e.ref ∧
        emChannels e = d.val ∧
        ∀ xs' d' ys', pre = xs' ++ .send d' (emAddress e) :: ys' → Reaches P.maxFPS xs' (emAddress e) e.ref →
          xs'.length ≤ xs.length) ∨
      (emChannels e = List.replicate 512 0 ∧
        ∀ xs d ys, pre = xs ++ .send d (emAddress e) :: ys → ¬ Reaches P.maxFPS xs (emAddress e) e.ref)) := by
  intro e he
  obtain ⟨h1, ⟨rest, h2⟩, _⟩ := C73_linearizable h
  have he' : e ∈ ((Ctrl.init P.maxFPS).run s.hist).2 := by rw [← h2]; exact List.mem_append_left _ he
  obtain ⟨pre, order, now, post, hh, hm⟩ := emitted_at P.maxFPS s.hist e he'
  refine ⟨pre, order, now, post, hh, C155_last_call P.maxFPS pre order now ?_ e hm⟩
  rw [hh] at h1
  have : pre ++ Op.tick order now :: post = (pre ++ [.tick order now]) ++ post := by simp
  rw [this, canRun_append] at h1
  exact h1.1

/-- C155: every call that does not reach the node it is routed to comes before the first tick that finds the universe
routed there, so that at most one tick passes before calls reach the node. -/
theorem C155_after_tick (m : Int) (os os' : List Op) (order : List Address) (now : Int) (a : Address) (r : Ref)
    (hr : Routed (stateAfter m os) a r) (hr' : Routed (stateAfter m (os ++ .tick order now :: os')) a r) :
    Reaches m (os ++ .tick order now :: os') a r :=
  ⟨hr', .inr ⟨os, order, now, os', rfl, hr⟩⟩

/-- C121 exactly: what is sent for a universe until SendDMXToAddress is called for it is dark if and only if the last
call before that reached the node set zeros, if there was one. -/
theorem C121_exact (m : Int) (os os' : List Op) (a : Address) (h : (Ctrl.init m).CanRun (os ++ os'))
    (hn : ∀ o ∈ os', ¬ SendsTo a o) :
    ∀ e ∈ ((stateAfter m os).run os').2, emAddress e = a →
      (emChannels e = List.replicate 512 0 ↔
        ∀ xs d ys, os = xs ++ .send d a :: ys → Reaches m xs a e.ref →
          (∀ xs' d' ys', os = xs' ++ .send d' a :: ys' → Reaches m xs' a e.ref → xs'.length ≤ xs.length) →
          d.val = List.replicate 512 0) := by
  intro e he ha
  have hk := C121_kept m os os' a h hn e he ha
  rw [canRun_append] at h
  rcases data_last m a e.ref os h.1 with ⟨xs, d, ys, g1, g2, g3, g4⟩ | ⟨g1, g2⟩
  · have hd : emChannels e = d.val := by rw [hk, ← g3]; rfl
    rw [hd]
    refine ⟨fun hz xs' d' ys' e1 e2 e3 => ?_, fun hz => hz xs d ys g1 g2 g4⟩
    have hl : xs.length = xs'.length := Nat.le_antisymm (e3 xs d ys g1 g2) (g4 xs' d' ys' e1 e2)
    rw [g1] at e1
    have := List.append_inj e1 hl
    obtain ⟨h5, _⟩ := List.cons.inj this.2
    injection h5 with h5
    rw [← h5]; exact hz
  · have hd : emChannels e = List.replicate 512 0 := by rw [hk]; exact g1
    exact ⟨fun _ xs d ys e1 e2 _ => absurd e2 (g2 xs d ys e1), fun _ => hd⟩

/-- A node that gives up universe 1 and takes it back: the last call that reached it set the channels to full. -/
def tookBack : List Op := [.reply (replyOf ipA 1) 0, .send fullOn (uni 1), .reply (replyOf ipA 2) 1000000000,
  .reply (replyOf ipA 1) 2000000000]

example : (Ctrl.init 40).CanRun (tookBack ++ [.tick [uni 1] 3000000000]) ∧
    (((stateAfter 40 tookBack).run [.tick [uni 1] 3000000000]).2.map fun e => (emAddress e, emChannels e)) =
      [(uni 1, fullOn.val)] :=
  ⟨canRunB_iff _ _ (by decide +kernel), by decide +kernel⟩

/-- Universe 2 is taken by a known node: the call before the next tick does not reach it, the one after it does. -/
example : Routed (stateAfter 40 [.reply (replyOf ipA 1) 0, .reply (replyOf ipA 2) 1000000000]) (uni 2) 0 ∧
    Routed (stateAfter 40 [.reply (replyOf ipA 1) 0, .reply (replyOf ipA 2) 1000000000, .tick [uni 2] 2000000000])
      (uni 2) 0 := by
  constructor <;> (unfold Routed; decide +kernel)

end Verif.Props
