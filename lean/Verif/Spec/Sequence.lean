import Verif.Spec.Rate
/-
Specification vocabulary for the sequence numbers of ArtDMX datagrams, as a receiver uses them.
-/
namespace Verif.Spec
open Artnet Packet

/-- A receiver that saw `last` takes `seq` for newer: zero switches the check off, otherwise `seq` is ahead of `last` by
less than half of the 256 numbers (Art-Net, field Sequence of ArtDmx). -/
def Newer (last seq : UInt8) : Prop :=
  last = 0 ∨ seq = 0 ∨ (1 ≤ (seq - last).toNat ∧ (seq - last).toNat ≤ 127)

instance (last seq : UInt8) : Decidable (Newer last seq) := by unfold Newer; infer_instance

/-- Every tick of a history that starts in `c` finds universe `a` routed to `r`. -/
def StaysRouted (a : Address) (r : Ref) (c : Ctrl) : List Op → Prop
  | [] => True
  | o :: os => (IsTick o → Routed c a r) ∧ StaysRouted a r (c.step o).1 os

/-- `e` is for universe `a` and made from the node object `r`. -/
def IsFor (a : Address) (r : Ref) (e : Emission) : Prop := e.ref = r ∧ emAddress e = a

/-- At rate `m`, with ticks at least `d` apart: of two datagrams for the same universe from the same node object, with
none in between and the universe always routed to the node in between, the second is newer for the receiver. -/
def KeepsSequence (m d : Int) : Prop :=
  ∀ (pre mid : List Op) (o1 o2 : List Address) (t1 t2 : Int) (a : Address) (r : Ref) (e1 e2 : Emission),
    (Ctrl.init m).CanRun (pre ++ .tick o1 t1 :: (mid ++ [.tick o2 t2])) →
    Spaced d (tickTimes (pre ++ .tick o1 t1 :: (mid ++ [.tick o2 t2]))) →
    e1 ∈ (((Ctrl.init m).run pre).1.step (.tick o1 t1)).2 → IsFor a r e1 →
    (∀ e ∈ ((((Ctrl.init m).run pre).1.step (.tick o1 t1)).1.run mid).2, ¬ IsFor a r e) →
    StaysRouted a r (((Ctrl.init m).run pre).1.step (.tick o1 t1)).1 mid →
    e2 ∈ (((((Ctrl.init m).run pre).1.step (.tick o1 t1)).1.run mid).1.step (.tick o2 t2)).2 → IsFor a r e2 →
    Newer (emSequence e1) (emSequence e2)

end Verif.Spec
