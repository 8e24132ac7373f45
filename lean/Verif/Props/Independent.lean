import Verif.Lemmas.Insulate
import Verif.Props.Sizes
/-
C134–C136: what a universe is sent does not depend on other universes, on hosts that do not claim it, nor on the order in which Go
goes through a map.
-/
namespace Verif.Props
open Artnet Packet Code Spec

/-- C134: two histories that differ only in calls of SendDMXToAddress for other universes, and in the order in which ticks go through
the map, send the same datagrams for universe `a`, but for the sequence numbers. -/
theorem C134_independent (m : Int) (os os' : List Op) (a : Address) (h : (Ctrl.init m).CanRun os) (h' : (Ctrl.init m).CanRun os')
    (hs : SameFor a os os') : streamOf a ((Ctrl.init m).run os').2 = streamOf a ((Ctrl.init m).run os).2 :=
  (same_run hs (Alike.refl _ _) (inv_init m) (inv_init m) h h').2

/-- C134: the calls of SendDMXToAddress for other universes can be left out. -/
theorem C134_without (m : Int) (os : List Op) (a : Address) (h : (Ctrl.init m).CanRun os) :
    (Ctrl.init m).CanRun (without a os) ∧
    streamOf a ((Ctrl.init m).run (without a os)).2 = streamOf a ((Ctrl.init m).run os).2 := by
  have h' := without_canRun a os (Alike.refl _ _) (inv_init m) (inv_init m) h
  exact ⟨h', C134_independent m os _ a h h' (without_same a os)⟩

/-- C135: two histories that differ only in the order in which ticks go through the map lead to the same state, and send the same
datagrams but for their order and the sequence numbers; for every universe the order is the same too. -/
theorem C135_order (m : Int) (os os' : List Op) (h : (Ctrl.init m).CanRun os) (h' : (Ctrl.init m).CanRun os')
    (ho : os'.map orderless = os.map orderless) :
    SameState ((Ctrl.init m).run os).1 ((Ctrl.init m).run os').1 ∧
    (((Ctrl.init m).run os').2.map content).Perm (((Ctrl.init m).run os).2.map content) ∧
    ∀ a, streamOf a ((Ctrl.init m).run os').2 = streamOf a ((Ctrl.init m).run os).2 := by
  obtain ⟨k, hs, hp⟩ := orders_run os os' ho (Alike.refl _ _) (fun _ => rfl) (inv_init m) (inv_init m) h h'
  refine ⟨⟨k.nodes, k.output, k.input, k.lastSeen, k.node, k.udp, hs, fun r a => k.buffer r a trivial⟩, hp, fun a => ?_⟩
  exact C134_independent m os os' a h h' (orderless_same a os os' ho)

/-- A node at 10.0.0.1 with output ports for universes 1 and 2. -/
def bothReply : ArtPollReply :=
  { replyOf ipA 1 with numPorts := 2, portTypes := ⟨[0x80, 0x80, 0, 0], rfl⟩, swOut := ⟨[1, 2, 0, 0], rfl⟩ }

/-- The node announces itself, data is sent to universe 1, and a tick goes through the universes in the given order. -/
def bothRun (order : List Address) : List Op := [.reply bothReply 0, .send (Arr.zero 512) ⟨0, 1⟩, .tick order 1000000000]

/-- Two orders: the state after the tick is the same and so is what each universe is sent, but not the sequence numbers; and what is
sent for universe 2 is the same without the data for universe 1. -/
example :
    (Ctrl.init 40).CanRun (bothRun [⟨0, 1⟩, ⟨0, 2⟩]) ∧ (Ctrl.init 40).CanRun (bothRun [⟨0, 2⟩, ⟨0, 1⟩]) ∧
    (bothRun [⟨0, 2⟩, ⟨0, 1⟩]).map orderless = (bothRun [⟨0, 1⟩, ⟨0, 2⟩]).map orderless ∧
    ((Ctrl.init 40).run (bothRun [⟨0, 1⟩, ⟨0, 2⟩])).2.map emSequence = [1, 2] ∧
    ((Ctrl.init 40).run (bothRun [⟨0, 1⟩, ⟨0, 2⟩])).2.map emAddress = [⟨0, 1⟩, ⟨0, 2⟩] ∧
    ((Ctrl.init 40).run (bothRun [⟨0, 2⟩, ⟨0, 1⟩])).2.map emAddress = [⟨0, 2⟩, ⟨0, 1⟩] ∧
    SameFor ⟨0, 2⟩ (bothRun [⟨0, 1⟩, ⟨0, 2⟩]) (without ⟨0, 2⟩ (bothRun [⟨0, 1⟩, ⟨0, 2⟩])) ∧
    (without ⟨0, 2⟩ (bothRun [⟨0, 1⟩, ⟨0, 2⟩])).length = 2 := by
  refine ⟨⟨trivial, trivial, ?_, trivial⟩, ⟨trivial, trivial, ?_, trivial⟩, rfl, by decide +kernel, by decide +kernel, by decide +kernel,
    without_same _ _, by decide +kernel⟩
  · exact List.isPerm_iff.mp (by decide +kernel)
  · exact List.isPerm_iff.mp (by decide +kernel)

/-- C136: two histories that differ in announcements of hosts that never claim universe `a` (and in what C134 allows) send the same
channels to the same destinations for universe `a`, in the same order. -/
theorem C136_insulated (m : Int) (os os' : List Op) (X : Bytes → Prop) (a : Address) (h : (Ctrl.init m).CanRun os)
    (h' : (Ctrl.init m).CanRun os') (hs : SameBut X a os os') :
    flowOf a ((Ctrl.init m).run os').2 = flowOf a ((Ctrl.init m).run os).2 :=
  insulate_run hs ⟨⟨rfl, nofun, nofun, nofun⟩, ⟨rfl, nofun, nofun, nofun⟩⟩ (inv_init m) (inv_init m) h h'

/-- The node at 10.0.0.1 has universe 1; the history with and without a host at 10.0.0.2 that announces universe 2. Both send one
datagram for universe 1. -/
example :
    let os : List Op := [.reply (replyOf ipB 2) 0, .reply (replyOf ipA 1) 0, .reply (replyOf ipB 2) 5, .gc fun _ => 100,
      .tick [⟨0, 2⟩, ⟨0, 1⟩] 1000000000]
    let os' : List Op := [.reply (replyOf ipA 1) 0, .gc fun _ => 100, .tick [⟨0, 1⟩] 1000000000]
    (Ctrl.init 40).CanRun os ∧ (Ctrl.init 40).CanRun os' ∧ SameBut (· = ipB.val) ⟨0, 1⟩ os os' ∧
    (flowOf ⟨0, 1⟩ ((Ctrl.init 40).run os).2).map Prod.fst = [⟨ipA.val, 6454⟩] ∧ ((Ctrl.init 40).run os).2.length = 2 := by
  refine ⟨⟨trivial, trivial, trivial, trivial, List.isPerm_iff.mp (by decide +kernel), trivial⟩,
    ⟨trivial, trivial, List.isPerm_iff.mp (by decide +kernel), trivial⟩,
    .replyL _ _ rfl (by unfold Abstains; decide +kernel) (.reply _ _ (by decide)
      (.replyL _ _ rfl (by unfold Abstains; decide +kernel) (.gc 100 (.tick _ _ _ .nil)))), by decide +kernel, by decide +kernel⟩

end Verif.Props
