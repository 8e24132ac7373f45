/-
Exhaustive checks over all bytes and all 16-bit words, lifted to universally quantified statements.
-/
namespace Verif

/-- All 256 bytes are covered by the 256 elements of `Fin 256`. -/
theorem forall_u8 {P : UInt8 → Prop} (h : ∀ i : Fin 256, P (UInt8.ofFin i)) (x : UInt8) : P x := by
  have := h x.toFin
  rwa [UInt8.ofFin_toFin] at this

/-- All 65536 words are covered by the elements of `Fin 65536`. -/
theorem forall_u16 {P : UInt16 → Prop} (h : ∀ i : Fin 65536, P (UInt16.ofFin i)) (x : UInt16) : P x := by
  have := h x.toFin
  rwa [UInt16.ofFin_toFin] at this

end Verif
