import Verif.Lemmas.Accept
import Verif.Spec.Kinds
/-
Helper lemmas: decoded packets depend only on the bytes at their field positions.
-/
namespace Verif
open Spec Packet Code

theorem arrAt_congr {b b' : Bytes} {o n : Nat} (h : ∀ j, j < n → byteAt b (o + j) = byteAt b' (o + j)) :
    arrAt b o n = arrAt b' o n := by
  ext1
  simp only [arrAt]
  congr 1
  funext i
  exact h i i.isLt

theorem be16At_congr {b b' : Bytes} {o : Nat} (h0 : byteAt b o = byteAt b' o)
    (h1 : byteAt b (o + 1) = byteAt b' (o + 1)) : be16At b o = be16At b' o := by
  simp only [be16At, h0, h1]

theorem le16At_congr {b b' : Bytes} {o : Nat} (h0 : byteAt b o = byteAt b' o)
    (h1 : byteAt b (o + 1) = byteAt b' (o + 1)) : le16At b o = le16At b' o := by
  simp only [le16At, h0, h1]

theorem opOf_congr {b b' : Bytes} (h : ∀ i, i < 12 → byteAt b i = byteAt b' i) :
    opOf b = opOf b' := le16At_congr (h 8 (by omega)) (h 9 (by omega))

theorem hdrOf_congr {b b' : Bytes} (h : ∀ i, i < 12 → byteAt b i = byteAt b' i) :
    hdrOf b = hdrOf b' := by
  have h1 : arrAt b 0 8 = arrAt b' 0 8 := arrAt_congr fun j hj => h _ (by omega)
  have h2 : arrAt b 10 2 = arrAt b' 10 2 := arrAt_congr fun j hj => h _ (by omega)
  simp only [hdrOf, h1, h2, opOf_congr h]

theorem pollOf_congr {b b' : Bytes}
    (h : ∀ i, i < 14 → i ∉ ([] : List Nat) → byteAt b i = byteAt b' i) :
    pollOf b = pollOf b' := by
  have hh : hdrOf b = hdrOf b' := hdrOf_congr fun i hi => h i (by omega) (by simp)
  have e12 : byteAt b 12 = byteAt b' 12 := h 12 (by omega) (by decide)
  have e13 : byteAt b 13 = byteAt b' 13 := h 13 (by omega) (by decide)
  simp only [pollOf, hh, e12, e13]

theorem pollReplyOf_congr {b b' : Bytes} (port : UInt16)
    (h : ∀ i, i < 239 → i ∉ ([197, 198, 199, 213, 214, 215, 216, 217, 218, 219, 220, 221, 222, 223, 224, 225, 226, 227, 228, 229, 230, 231, 232, 233, 234, 235, 236, 237, 238] : List Nat) → byteAt b i = byteAt b' i) :
    pollReplyOf b port = pollReplyOf b' port := by
  have hh : opOf b = opOf b' := opOf_congr fun i hi => h i (by omega) (by simp only [List.mem_cons, List.not_mem_nil, or_false]; omega)
  have e18 : byteAt b 18 = byteAt b' 18 := h 18 (by omega) (by decide)
  have e19 : byteAt b 19 = byteAt b' 19 := h 19 (by omega) (by decide)
  have e22 : byteAt b 22 = byteAt b' 22 := h 22 (by omega) (by decide)
  have e23 : byteAt b 23 = byteAt b' 23 := h 23 (by omega) (by decide)
  have e194 : byteAt b 194 = byteAt b' 194 := h 194 (by omega) (by decide)
  have e195 : byteAt b 195 = byteAt b' 195 := h 195 (by omega) (by decide)
  have e196 : byteAt b 196 = byteAt b' 196 := h 196 (by omega) (by decide)
  have e200 : byteAt b 200 = byteAt b' 200 := h 200 (by omega) (by decide)
  have e211 : byteAt b 211 = byteAt b' 211 := h 211 (by omega) (by decide)
  have e212 : byteAt b 212 = byteAt b' 212 := h 212 (by omega) (by decide)
  have w16 : be16At b 16 = be16At b' 16 :=
    be16At_congr (h 16 (by omega) (by decide)) (h 17 (by omega) (by decide))
  have w20 : be16At b 20 = be16At b' 20 :=
    be16At_congr (h 20 (by omega) (by decide)) (h 21 (by omega) (by decide))
  have w172 : be16At b 172 = be16At b' 172 :=
    be16At_congr (h 172 (by omega) (by decide)) (h 173 (by omega) (by decide))
  have a0 : arrAt b 0 8 = arrAt b' 0 8 :=
    arrAt_congr fun j hj => h _ (by omega) (by simp only [List.mem_cons, List.not_mem_nil, or_false]; omega)
  have a10 : arrAt b 10 4 = arrAt b' 10 4 :=
    arrAt_congr fun j hj => h _ (by omega) (by simp only [List.mem_cons, List.not_mem_nil, or_false]; omega)
  have a24 : arrAt b 24 2 = arrAt b' 24 2 :=
    arrAt_congr fun j hj => h _ (by omega) (by simp only [List.mem_cons, List.not_mem_nil, or_false]; omega)
  have a26 : arrAt b 26 18 = arrAt b' 26 18 :=
    arrAt_congr fun j hj => h _ (by omega) (by simp only [List.mem_cons, List.not_mem_nil, or_false]; omega)
  have a44 : arrAt b 44 64 = arrAt b' 44 64 :=
    arrAt_congr fun j hj => h _ (by omega) (by simp only [List.mem_cons, List.not_mem_nil, or_false]; omega)
  have a108 : arrAt b 108 64 = arrAt b' 108 64 :=
    arrAt_congr fun j hj => h _ (by omega) (by simp only [List.mem_cons, List.not_mem_nil, or_false]; omega)
  have a174 : arrAt b 174 4 = arrAt b' 174 4 :=
    arrAt_congr fun j hj => h _ (by omega) (by simp only [List.mem_cons, List.not_mem_nil, or_false]; omega)
  have a178 : arrAt b 178 4 = arrAt b' 178 4 :=
    arrAt_congr fun j hj => h _ (by omega) (by simp only [List.mem_cons, List.not_mem_nil, or_false]; omega)
  have a182 : arrAt b 182 4 = arrAt b' 182 4 :=
    arrAt_congr fun j hj => h _ (by omega) (by simp only [List.mem_cons, List.not_mem_nil, or_false]; omega)
  have a186 : arrAt b 186 4 = arrAt b' 186 4 :=
    arrAt_congr fun j hj => h _ (by omega) (by simp only [List.mem_cons, List.not_mem_nil, or_false]; omega)
  have a190 : arrAt b 190 4 = arrAt b' 190 4 :=
    arrAt_congr fun j hj => h _ (by omega) (by simp only [List.mem_cons, List.not_mem_nil, or_false]; omega)
  have a201 : arrAt b 201 6 = arrAt b' 201 6 :=
    arrAt_congr fun j hj => h _ (by omega) (by simp only [List.mem_cons, List.not_mem_nil, or_false]; omega)
  have a207 : arrAt b 207 4 = arrAt b' 207 4 :=
    arrAt_congr fun j hj => h _ (by omega) (by simp only [List.mem_cons, List.not_mem_nil, or_false]; omega)
  simp only [pollReplyOf, hh, e18, e19, e22, e23, e194, e195, e196, e200, e211, e212, w16, w20, w172, a0, a10, a24, a26, a44, a108, a174, a178, a182, a186, a190, a201, a207]

theorem diagDataOf_congr {b b' : Bytes}
    (h : ∀ i, i < 530 → i ∉ ([12, 14, 15] : List Nat) → byteAt b i = byteAt b' i) :
    diagDataOf b = diagDataOf b' := by
  have hh : hdrOf b = hdrOf b' := hdrOf_congr fun i hi => h i (by omega) (by simp only [List.mem_cons, List.not_mem_nil, or_false]; omega)
  have e13 : byteAt b 13 = byteAt b' 13 := h 13 (by omega) (by decide)
  have w16 : be16At b 16 = be16At b' 16 :=
    be16At_congr (h 16 (by omega) (by decide)) (h 17 (by omega) (by decide))
  have a18 : arrAt b 18 512 = arrAt b' 18 512 :=
    arrAt_congr fun j hj => h _ (by omega) (by simp only [List.mem_cons, List.not_mem_nil, or_false]; omega)
  simp only [diagDataOf, hh, e13, w16, a18]

theorem commandOf_congr {b b' : Bytes}
    (h : ∀ i, i < 528 → i ∉ ([] : List Nat) → byteAt b i = byteAt b' i) :
    commandOf b = commandOf b' := by
  have hh : hdrOf b = hdrOf b' := hdrOf_congr fun i hi => h i (by omega) (by simp)
  have w14 : be16At b 14 = be16At b' 14 :=
    be16At_congr (h 14 (by omega) (by decide)) (h 15 (by omega) (by decide))
  have a12 : arrAt b 12 2 = arrAt b' 12 2 :=
    arrAt_congr fun j hj => h _ (by omega) (by simp)
  have a16 : arrAt b 16 512 = arrAt b' 16 512 :=
    arrAt_congr fun j hj => h _ (by omega) (by simp)
  simp only [commandOf, hh, w14, a12, a16]

theorem nzsOf_congr {b b' : Bytes}
    (h : ∀ i, i < 530 → i ∉ ([] : List Nat) → byteAt b i = byteAt b' i) :
    nzsOf b = nzsOf b' := by
  have hh : hdrOf b = hdrOf b' := hdrOf_congr fun i hi => h i (by omega) (by simp)
  have e12 : byteAt b 12 = byteAt b' 12 := h 12 (by omega) (by decide)
  have e13 : byteAt b 13 = byteAt b' 13 := h 13 (by omega) (by decide)
  have e14 : byteAt b 14 = byteAt b' 14 := h 14 (by omega) (by decide)
  have e15 : byteAt b 15 = byteAt b' 15 := h 15 (by omega) (by decide)
  have w16 : be16At b 16 = be16At b' 16 :=
    be16At_congr (h 16 (by omega) (by decide)) (h 17 (by omega) (by decide))
  have a18 : arrAt b 18 512 = arrAt b' 18 512 :=
    arrAt_congr fun j hj => h _ (by omega) (by simp)
  simp only [nzsOf, hh, e12, e13, e14, e15, w16, a18]

theorem syncOf_congr {b b' : Bytes}
    (h : ∀ i, i < 14 → i ∉ ([12, 13] : List Nat) → byteAt b i = byteAt b' i) :
    syncOf b = syncOf b' := by
  have hh : hdrOf b = hdrOf b' := hdrOf_congr fun i hi => h i (by omega) (by simp only [List.mem_cons, List.not_mem_nil, or_false]; omega)
  simp only [syncOf, hh]

theorem addressOf_congr {b b' : Bytes}
    (h : ∀ i, i < 107 → i ∉ ([] : List Nat) → byteAt b i = byteAt b' i) :
    addressOf b = addressOf b' := by
  have hh : hdrOf b = hdrOf b' := hdrOf_congr fun i hi => h i (by omega) (by simp)
  have e12 : byteAt b 12 = byteAt b' 12 := h 12 (by omega) (by decide)
  have e13 : byteAt b 13 = byteAt b' 13 := h 13 (by omega) (by decide)
  have e104 : byteAt b 104 = byteAt b' 104 := h 104 (by omega) (by decide)
  have e105 : byteAt b 105 = byteAt b' 105 := h 105 (by omega) (by decide)
  have e106 : byteAt b 106 = byteAt b' 106 := h 106 (by omega) (by decide)
  have a14 : arrAt b 14 18 = arrAt b' 14 18 :=
    arrAt_congr fun j hj => h _ (by omega) (by simp)
  have a32 : arrAt b 32 64 = arrAt b' 32 64 :=
    arrAt_congr fun j hj => h _ (by omega) (by simp)
  have a96 : arrAt b 96 4 = arrAt b' 96 4 :=
    arrAt_congr fun j hj => h _ (by omega) (by simp)
  have a100 : arrAt b 100 4 = arrAt b' 100 4 :=
    arrAt_congr fun j hj => h _ (by omega) (by simp)
  simp only [addressOf, hh, e12, e13, e104, e105, e106, a14, a32, a96, a100]

theorem timeCodeOf_congr {b b' : Bytes}
    (h : ∀ i, i < 19 → i ∉ ([12, 13] : List Nat) → byteAt b i = byteAt b' i) :
    timeCodeOf b = timeCodeOf b' := by
  have hh : hdrOf b = hdrOf b' := hdrOf_congr fun i hi => h i (by omega) (by simp only [List.mem_cons, List.not_mem_nil, or_false]; omega)
  have e14 : byteAt b 14 = byteAt b' 14 := h 14 (by omega) (by decide)
  have e15 : byteAt b 15 = byteAt b' 15 := h 15 (by omega) (by decide)
  have e16 : byteAt b 16 = byteAt b' 16 := h 16 (by omega) (by decide)
  have e17 : byteAt b 17 = byteAt b' 17 := h 17 (by omega) (by decide)
  have e18 : byteAt b 18 = byteAt b' 18 := h 18 (by omega) (by decide)
  simp only [timeCodeOf, hh, e14, e15, e16, e17, e18]

theorem triggerOf_congr {b b' : Bytes}
    (h : ∀ i, i < 530 → i ∉ ([12, 13] : List Nat) → byteAt b i = byteAt b' i) :
    triggerOf b = triggerOf b' := by
  have hh : hdrOf b = hdrOf b' := hdrOf_congr fun i hi => h i (by omega) (by simp only [List.mem_cons, List.not_mem_nil, or_false]; omega)
  have e16 : byteAt b 16 = byteAt b' 16 := h 16 (by omega) (by decide)
  have e17 : byteAt b 17 = byteAt b' 17 := h 17 (by omega) (by decide)
  have w14 : be16At b 14 = be16At b' 14 :=
    be16At_congr (h 14 (by omega) (by decide)) (h 15 (by omega) (by decide))
  have a18 : arrAt b 18 512 = arrAt b' 18 512 :=
    arrAt_congr fun j hj => h _ (by omega) (by simp only [List.mem_cons, List.not_mem_nil, or_false]; omega)
  simp only [triggerOf, hh, e16, e17, w14, a18]

theorem ipProgOf_congr {b b' : Bytes}
    (h : ∀ i, i < 34 → i ∉ ([12, 13, 15, 26, 27, 28, 29, 30, 31, 32, 33] : List Nat) → byteAt b i = byteAt b' i) :
    ipProgOf b = ipProgOf b' := by
  have hh : hdrOf b = hdrOf b' := hdrOf_congr fun i hi => h i (by omega) (by simp only [List.mem_cons, List.not_mem_nil, or_false]; omega)
  have e14 : byteAt b 14 = byteAt b' 14 := h 14 (by omega) (by decide)
  have a16 : arrAt b 16 4 = arrAt b' 16 4 :=
    arrAt_congr fun j hj => h _ (by omega) (by simp only [List.mem_cons, List.not_mem_nil, or_false]; omega)
  have a20 : arrAt b 20 4 = arrAt b' 20 4 :=
    arrAt_congr fun j hj => h _ (by omega) (by simp only [List.mem_cons, List.not_mem_nil, or_false]; omega)
  have a24 : arrAt b 24 2 = arrAt b' 24 2 :=
    arrAt_congr fun j hj => h _ (by omega) (by simp only [List.mem_cons, List.not_mem_nil, or_false]; omega)
  simp only [ipProgOf, hh, e14, a16, a20, a24]

theorem ipProgReplyOf_congr {b b' : Bytes}
    (h : ∀ i, i < 34 → i ∉ ([12, 13, 14, 15, 27, 28, 29, 30, 31, 32, 33] : List Nat) → byteAt b i = byteAt b' i) :
    ipProgReplyOf b = ipProgReplyOf b' := by
  have hh : hdrOf b = hdrOf b' := hdrOf_congr fun i hi => h i (by omega) (by simp only [List.mem_cons, List.not_mem_nil, or_false]; omega)
  have e26 : byteAt b 26 = byteAt b' 26 := h 26 (by omega) (by decide)
  have a16 : arrAt b 16 4 = arrAt b' 16 4 :=
    arrAt_congr fun j hj => h _ (by omega) (by simp only [List.mem_cons, List.not_mem_nil, or_false]; omega)
  have a20 : arrAt b 20 4 = arrAt b' 20 4 :=
    arrAt_congr fun j hj => h _ (by omega) (by simp only [List.mem_cons, List.not_mem_nil, or_false]; omega)
  have a24 : arrAt b 24 2 = arrAt b' 24 2 :=
    arrAt_congr fun j hj => h _ (by omega) (by simp only [List.mem_cons, List.not_mem_nil, or_false]; omega)
  simp only [ipProgReplyOf, hh, e26, a16, a20, a24]

theorem dmxOf_congr {b b' : Bytes} (h : ∀ i, i < 18 → byteAt b i = byteAt b' i)
    (hd : ∀ i, i < (be16At b 16).toNat → byteAt b (18 + i) = byteAt b' (18 + i)) :
    dmxOf b = dmxOf b' := by
  have hh : hdrOf b = hdrOf b' := hdrOf_congr fun i hi => h i (by omega)
  have e12 : byteAt b 12 = byteAt b' 12 := h 12 (by omega)
  have e13 : byteAt b 13 = byteAt b' 13 := h 13 (by omega)
  have e14 : byteAt b 14 = byteAt b' 14 := h 14 (by omega)
  have e15 : byteAt b 15 = byteAt b' 15 := h 15 (by omega)
  have w16 : be16At b 16 = be16At b' 16 := be16At_congr (h 16 (by omega)) (h 17 (by omega))
  have hdat : (fun i : Fin 512 => if i.val < (be16At b' 16).toNat then byteAt b (18 + i) else 0) =
      (fun i : Fin 512 => if i.val < (be16At b' 16).toNat then byteAt b' (18 + i) else 0) := by
    funext i
    rw [← w16]
    by_cases hi : i.val < (be16At b 16).toNat
    · rw [if_pos hi, if_pos hi, hd _ hi]
    · rw [if_neg hi, if_neg hi]
  simp only [dmxOf, hh, e12, e13, e14, e15, w16, hdat]

end Verif
