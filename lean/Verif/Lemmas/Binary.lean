import Verif.Go.Binary
import Verif.Spec.Bytes
/-
Helper lemmas about the model of encoding/binary. `readVals` is a proof device: the decoded fields
expressed through absolute offsets.
-/
namespace Verif
open Spec

theorem getBE16_putBE16 (x : UInt16) : getBE16 (x >>> 8).toUInt8 x.toUInt8 = x := by
  apply UInt16.toNat_inj.mp
  have hx := x.toNat_lt
  simp only [getBE16, UInt16.toNat_or, UInt8.toNat_toUInt16, UInt16.toNat_toUInt8,
    UInt16.toNat_shiftLeft, UInt16.toNat_shiftRight, UInt16.reduceToNat, Nat.reduceMod]
  rw [Nat.or_comm, Nat.shiftLeft_eq, Nat.shiftRight_eq_div_pow]
  have h1 : x.toNat / 2 ^ 8 % 2 ^ 8 * 2 ^ 8 % 2 ^ 16 = (x.toNat / 2 ^ 8) <<< 8 := by
    rw [Nat.shiftLeft_eq]; omega
  rw [h1, ← Nat.shiftLeft_add_eq_or_of_lt (by omega), Nat.shiftLeft_eq]
  omega

theorem toNat_getBE16 (a b : UInt8) : (getBE16 a b).toNat = 256 * a.toNat + b.toNat := by
  have ha := a.toNat_lt
  have hb := b.toNat_lt
  simp only [getBE16, UInt16.toNat_or, UInt8.toNat_toUInt16,
    UInt16.toNat_shiftLeft, UInt16.reduceToNat, Nat.reduceMod]
  rw [Nat.or_comm]
  have h1 : a.toNat <<< 8 % 2 ^ 16 = a.toNat <<< 8 := by
    rw [Nat.shiftLeft_eq]; omega
  rw [h1, ← Nat.shiftLeft_add_eq_or_of_lt (by omega), Nat.shiftLeft_eq]
  omega

theorem encField_length (f : Field) (v : f.ty) : (encField f v).length = f.size := by
  cases f with
  | u8 => rfl
  | u16 => rfl
  | arr n => exact v.len
  | blank n => simp [encField, Field.size]

theorem encVals_length (fs : List Field) (vs : Vals fs) : (encVals fs vs).length = sizeOf' fs := by
  induction fs with
  | nil => rfl
  | cons f fs ih =>
    obtain ⟨v, vs⟩ := vs
    simp only [encVals, List.length_append, encField_length, ih]
    simp [sizeOf']

theorem decField_encField (f : Field) (v : f.ty) (t : Bytes) :
    decField f (encField f v ++ t) = some (v, t) := by
  cases f with
  | u8 => rfl
  | u16 =>
    show some (getBE16 _ _, t) = _
    rw [getBE16_putBE16]
  | arr n =>
    have hl : v.val.length = n := v.len
    have hn : n ≤ (v.val ++ t).length := by rw [List.length_append, hl]; omega
    show decField (.arr n) (v.val ++ t) = _
    simp only [decField]
    rw [dif_pos hn]
    congr 2
    · ext1; simp [← hl]
    · simp [← hl]
  | blank n =>
    simp [decField, encField]

theorem decVals_encVals (fs : List Field) (vs : Vals fs) (t : Bytes) :
    decVals fs (encVals fs vs ++ t) = some (vs, t) := by
  induction fs with
  | nil => rfl
  | cons f fs ih =>
    obtain ⟨v, vs⟩ := vs
    simp only [decVals, encVals, List.append_assoc, decField_encField, Option.bind_eq_bind,
      Option.bind_some, ih]
    rfl

def readField (b : Bytes) (o : Nat) : (f : Field) → f.ty
  | .u8 => byteAt b o
  | .u16 => getBE16 (byteAt b o) (byteAt b (o + 1))
  | .arr n => arrAt b o n
  | .blank _ => ()

def readVals (b : Bytes) : (o : Nat) → (fs : List Field) → Vals fs
  | _, [] => ()
  | o, f :: fs => (readField b o f, readVals b (o + f.size) fs)

theorem byteAt_drop (b : Bytes) (k i : Nat) : byteAt (b.drop k) i = byteAt b (k + i) := by
  simp [byteAt]

theorem arrAt_drop (b : Bytes) (k o n : Nat) : arrAt (b.drop k) o n = arrAt b (k + o) n := by
  ext1; simp [arrAt, byteAt_drop, Nat.add_assoc]

theorem readField_drop (b : Bytes) (k o : Nat) (f : Field) :
    readField (b.drop k) o f = readField b (k + o) f := by
  cases f <;> simp [readField, byteAt_drop, arrAt_drop, Nat.add_assoc]

theorem readVals_drop (b : Bytes) (k o : Nat) (fs : List Field) :
    readVals (b.drop k) o fs = readVals b (k + o) fs := by
  induction fs generalizing o with
  | nil => rfl
  | cons f fs ih => simp [readVals, readField_drop, ih, Nat.add_assoc]

theorem arrAt_eq_take (b : Bytes) (n : Nat) (h : n ≤ b.length) :
    arrAt b 0 n = ⟨b.take n, by simp; omega⟩ := by
  ext1
  apply List.ext_getElem
  · simp [arrAt]; omega
  · intro i h1 h2
    have hi : i < b.length := by simp at h2; omega
    simp [arrAt, byteAt, hi]

theorem decField_eq (f : Field) (b : Bytes) (h : f.size ≤ b.length) :
    decField f b = some (readField b 0 f, b.drop f.size) := by
  cases f with
  | u8 =>
    match b, h with
    | x :: b, _ => rfl
  | u16 =>
    match b, h with
    | x :: y :: b, _ => rfl
    | [_], h => simp [Field.size] at h
  | arr n =>
    have h : n ≤ b.length := h
    simp [decField, readField, Field.size, h, arrAt_eq_take b n h]
  | blank n =>
    have h : n ≤ b.length := h
    simp [decField, readField, Field.size, h]

theorem decVals_eq (fs : List Field) (b : Bytes) (h : sizeOf' fs ≤ b.length) :
    decVals fs b = some (readVals b 0 fs, b.drop (sizeOf' fs)) := by
  induction fs generalizing b with
  | nil => rfl
  | cons f fs ih =>
    have hs : sizeOf' (f :: fs) = f.size + sizeOf' fs := by simp [sizeOf']
    rw [hs] at h
    simp only [decVals]
    rw [decField_eq f b (by omega)]
    simp only [Option.bind_eq_bind, Option.bind_some]
    rw [ih (b.drop f.size) (by simp; omega)]
    simp [readVals, hs, readVals_drop, List.drop_drop]

theorem decVals_isSome (fs : List Field) (b : Bytes) (h : sizeOf' fs ≤ b.length) :
    (decVals fs b).isSome := by rw [decVals_eq fs b h]; rfl

theorem binaryRead_short {α : Type} [GoStruct α] (p : α) (b : Bytes) (h : b.length < wireSize α) :
    binaryRead p b = (p, some (if b.isEmpty then .eof else .unexpectedEOF)) := by
  simp [binaryRead, h]

theorem binaryRead_long {α : Type} [GoStruct α] (p : α) (b : Bytes) (h : wireSize α ≤ b.length) :
    binaryRead p b = (GoStruct.ofVals (readVals b 0 (GoStruct.layout α)), none) := by
  simp only [binaryRead, Nat.not_lt.mpr h, if_false]
  rw [decVals_eq _ _ h]

theorem binaryWrite_length {α : Type} [GoStruct α] (p : α) :
    (binaryWrite p).length = wireSize α := encVals_length _ _

/-- the fields read back from an encoded struct -/
theorem readVals_encVals (fs : List Field) (vs : Vals fs) (t : Bytes) :
    readVals (encVals fs vs ++ t) 0 fs = vs := by
  have h1 := decVals_eq fs (encVals fs vs ++ t) (by simp [encVals_length])
  rw [decVals_encVals] at h1
  exact (congrArg Prod.fst (Option.some.inj h1)).symm

theorem byteAt_append_left (b t : Bytes) (i : Nat) (h : i < b.length) :
    byteAt (b ++ t) i = byteAt b i := by
  simp [byteAt, List.getElem?_append_left h]

theorem arrAt_append_left (b t : Bytes) (o n : Nat) (h : o + n ≤ b.length) :
    arrAt (b ++ t) o n = arrAt b o n := by
  ext1
  simp only [arrAt]
  congr 1
  funext i
  exact byteAt_append_left _ _ _ (by omega)

theorem readVals_append_left (b t : Bytes) (o : Nat) (fs : List Field)
    (h : o + sizeOf' fs ≤ b.length) : readVals (b ++ t) o fs = readVals b o fs := by
  induction fs generalizing o with
  | nil => rfl
  | cons f fs ih =>
    have hs : sizeOf' (f :: fs) = f.size + sizeOf' fs := by simp [sizeOf']
    rw [hs] at h
    simp only [readVals]
    rw [ih _ (by omega)]
    congr 1
    cases f with
    | u8 => exact byteAt_append_left _ _ _ (by simp [Field.size] at h; omega)
    | u16 =>
      simp [Field.size] at h
      simp only [readField]
      rw [byteAt_append_left _ _ _ (by omega), byteAt_append_left _ _ _ (by omega)]
    | arr n => exact arrAt_append_left _ _ _ _ (by simp [Field.size] at h; omega)
    | blank n => rfl

end Verif
