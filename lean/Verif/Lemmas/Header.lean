import Verif.Lemmas.Binary
import Verif.Spec.Wire
/-
Helper lemmas: byte order, and the header decoder in terms of absolute offsets.
-/
namespace Verif
open Spec Packet Code

theorem toNat_swapUint16 (x : UInt16) :
    (swapUint16 x).toNat = x.toNat / 256 + x.toNat % 256 * 256 := by
  have hx := x.toNat_lt
  simp only [swapUint16, UInt16.toNat_add, UInt16.toNat_shiftLeft, UInt16.toNat_shiftRight,
    UInt16.reduceToNat, Nat.reduceMod, Nat.shiftLeft_eq, Nat.shiftRight_eq_div_pow]
  omega

@[simp] theorem swap_swap (x : UInt16) : swapUint16 (swapUint16 x) = x := by
  apply UInt16.toNat_inj.mp
  have hx := x.toNat_lt
  rw [toNat_swapUint16, toNat_swapUint16]
  omega

theorem swap_inj {x y : UInt16} : swapUint16 x = swapUint16 y ↔ x = y :=
  ⟨fun h => by rw [← swap_swap x, h, swap_swap], fun h => h ▸ rfl⟩

theorem swap_eq_iff {x y : UInt16} : swapUint16 x = y ↔ x = swapUint16 y :=
  ⟨fun h => by rw [← h, swap_swap], fun h => by rw [h, swap_swap]⟩

theorem swap_getBE16 (a b : UInt8) : swapUint16 (getBE16 a b) = getBE16 b a := by
  apply UInt16.toNat_inj.mp
  have ha := a.toNat_lt
  have hb := b.toNat_lt
  rw [toNat_swapUint16, toNat_getBE16, toNat_getBE16]
  omega

theorem getBE16_be (b : Bytes) (o : Nat) : getBE16 (byteAt b o) (byteAt b (o + 1)) = be16At b o := by
  apply UInt16.toNat_inj.mp
  have ha := (byteAt b o).toNat_lt
  have hb := (byteAt b (o + 1)).toNat_lt
  simp only [toNat_getBE16, be16At, UInt16.toNat_ofNat']
  omega

theorem getBE16_le (b : Bytes) (o : Nat) : getBE16 (byteAt b (o + 1)) (byteAt b o) = le16At b o := by
  apply UInt16.toNat_inj.mp
  have ha := (byteAt b o).toNat_lt
  have hb := (byteAt b (o + 1)).toNat_lt
  simp only [toNat_getBE16, le16At, UInt16.toNat_ofNat']
  omega

theorem swap_be16At (b : Bytes) (o : Nat) : swapUint16 (be16At b o) = le16At b o := by
  rw [← getBE16_be, ← getBE16_le, swap_getBE16]

theorem swap_le16At (b : Bytes) (o : Nat) : swapUint16 (le16At b o) = be16At b o := by
  rw [← getBE16_be, ← getBE16_le, swap_getBE16]

theorem putBE16_be (x : UInt16) : putBE16 x = be16 x := by
  have hx := x.toNat_lt
  simp only [putBE16, be16, List.cons.injEq, and_true]
  constructor <;> apply UInt8.toNat_inj.mp
  · simp [Nat.shiftRight_eq_div_pow]
  · simp

theorem putBE16_swap (x : UInt16) : putBE16 (swapUint16 x) = le16 x := by
  have hx := x.toNat_lt
  rw [putBE16_be]
  have h1 : (x.toNat / 256 + x.toNat % 256 * 256) / 256 = x.toNat % 256 := by
    rw [Nat.add_mul_div_right _ _ (by omega), Nat.div_eq_of_lt (by omega)]; omega
  have h2 : (x.toNat / 256 + x.toNat % 256 * 256) % 256 = x.toNat / 256 := by
    rw [Nat.add_mul_mod_self_right, Nat.mod_eq_of_lt (by omega)]
  simp only [be16, le16, toNat_swapUint16, h1, h2]

theorem idx_ok (b : Bytes) (i : Nat) (h : i < b.length) : idx b i = .ok (byteAt b i) := by
  simp [idx, byteAt, h]

theorem slice_ok (b : Bytes) (lo hi : Nat) (h : lo ≤ hi) (h' : hi ≤ b.length) :
    slice b lo hi = .ok ((b.take hi).drop lo) := by
  simp [slice, h, h']

theorem byteAt_take (b : Bytes) (n i : Nat) (h : i < n) : byteAt (b.take n) i = byteAt b i := by
  simp [byteAt, h]

theorem arrAt8 (b : Bytes) : arrAt b 0 8 = ⟨[byteAt b 0, byteAt b 1, byteAt b 2, byteAt b 3,
    byteAt b 4, byteAt b 5, byteAt b 6, byteAt b 7], rfl⟩ := rfl

theorem arrAt2 (b : Bytes) (o : Nat) : arrAt b o 2 = ⟨[byteAt b o, byteAt b (o + 1)], rfl⟩ := rfl

/-- The header decoder, field by field. -/
theorem header_unmarshal_eq (p : Header) (b : Bytes) (h : 12 ≤ b.length) :
    p.unmarshal b = .ok (Header.validate ⟨arrAt b 0 8, be16At b 8,
      if be16At b 8 ≠ OpCode.opPollReply then arrAt b 10 2 else p.version⟩) := by
  have h' : ¬ b.length < 12 := by omega
  simp only [Header.unmarshal, h', if_false]
  simp only [idx_ok b 0 (by omega), idx_ok b 1 (by omega), idx_ok b 2 (by omega),
    idx_ok b 3 (by omega), idx_ok b 4 (by omega), idx_ok b 5 (by omega), idx_ok b 6 (by omega),
    idx_ok b 7 (by omega), idx_ok b 8 (by omega), idx_ok b 9 (by omega), idx_ok b 10 (by omega),
    idx_ok b 11 (by omega), bind, Except.bind, pure, Except.pure]
  rw [arrAt8, ← getBE16_be b 8, arrAt2]
  split <;> rfl

theorem header_unmarshal_short (p : Header) (b : Bytes) (h : b.length < 12) :
    p.unmarshal b = .ok (p, some .incorrectHeaderLength) := by
  simp [Header.unmarshal, h]

/-- The version byte the code looks at. -/
def seenVersion (b : Bytes) : UInt8 := if be16At b 8 = OpCode.opPollReply then 0 else byteAt b 11

theorem artNet_magic (b : Bytes) : arrAt b 0 8 = artNet ↔ (arrAt b 0 8).val = magic := by
  constructor
  · intro h; rw [h]; rfl
  · intro h; ext1; rw [h]; rfl

theorem arrAt_val_take (b : Bytes) (n : Nat) (h : n ≤ b.length) : (arrAt b 0 n).val = b.take n := by
  rw [arrAt_eq_take b n h]

end Verif
