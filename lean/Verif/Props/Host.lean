import Verif.Lemmas.Host
import Verif.Props.Receive
/-
C60: which datagrams come from another host.
-/
namespace Verif.Props
open Spec Packet Code Artnet Conc

/-- C60: a datagram is taken for the Node's own if and only if it comes from the address of the Node, in four or in sixteen bytes. -/
theorem C60_own (P : Params) (p : Payload) : fromOther P p = false ↔ longForm P.localIP = longForm p.address.ip := by
  unfold fromOther
  rw [Bool.not_eq_false']
  exact ipEqual_longForm _ _

/-- C60: what an own datagram is does not depend on the form in which the system gives its source. -/
theorem C60_form (P : Params) (p : Payload) (port : Nat) (d : Bytes) :
    fromOther P ⟨⟨longForm p.address.ip, port⟩, d⟩ = fromOther P p := by
  have hi : longForm (longForm p.address.ip) = longForm p.address.ip := by
    unfold longForm
    split
    · rename_i h
      rw [if_neg (by simp [h])]
    · rfl
  have h1 := C60_own P p
  have h2 := C60_own P ⟨⟨longForm p.address.ip, port⟩, d⟩
  dsimp only at h2
  rw [hi, ← h1] at h2
  cases hx : fromOther P p with
  | false => exact h2.mpr hx
  | true =>
    cases hy : fromOther P ⟨⟨longForm p.address.ip, port⟩, d⟩ with
    | false => rw [h2.mp hy] at hx; cases hx
    | true => rfl

/-- The Node's own address in both forms, and the address of another host. -/
example : fromOther sampleNode ⟨⟨[2, 0, 0, 1], 6454⟩, []⟩ = false ∧
    fromOther sampleNode ⟨⟨[0, 0, 0, 0, 0, 0, 0, 0, 0, 0, 255, 255, 2, 0, 0, 1], 6454⟩, []⟩ = false ∧
    fromOther sampleNode ⟨⟨[2, 0, 0, 2], 6454⟩, []⟩ = true ∧
    fromOther sampleNode ⟨⟨[0, 0, 0, 0, 0, 0, 0, 0, 0, 0, 0, 0, 2, 0, 0, 1], 6454⟩, []⟩ = true := by
  decide +kernel

end Verif.Props
