import Verif.Lemmas.Encode
import Verif.Spec.Forward
/-
Wire images compared with a function from positions to bytes.
-/
namespace Verif.Props
open Spec Packet

/-- `l` is the bytes `k`, …, `m - 1` of `f`. -/
structure Agree (f : Nat → UInt8) (k : Nat) (l : Bytes) (m : Nat) : Prop where
  len : k + l.length = m
  eq : ∀ i, i < l.length → byteAt l i = f (k + i)

theorem Agree.append {f : Nat → UInt8} {k m n : Nat} {l l' : Bytes} (h : Agree f k l m) (h' : Agree f m l' n) :
    Agree f k (l ++ l') n := by
  refine ⟨by rw [List.length_append, ← Nat.add_assoc, h.len, h'.len], ?_⟩
  intro i hi
  rw [List.length_append] at hi
  by_cases hl : i < l.length
  · rw [← h.eq i hl, byteAt, byteAt, List.getElem?_append_left hl]
  · have := h'.eq (i - l.length) (by omega)
    rw [byteAt, List.getElem?_append_right (by omega)]
    rw [byteAt] at this
    rw [this]
    congr 1
    have := h.len
    omega

theorem Agree.nil {f : Nat → UInt8} {k : Nat} : Agree f k [] k := ⟨rfl, fun _ h => absurd h (Nat.not_lt_zero _)⟩

theorem Agree.cons {f : Nat → UInt8} {k m : Nat} {x : UInt8} {l : Bytes} (h : Agree f (k + 1) l m) (hx : x = f k) :
    Agree f k (x :: l) m := by
  refine Agree.append (l := [x]) (m := k + 1) ⟨rfl, ?_⟩ h
  intro i hi
  have : i = 0 := by simp at hi; omega
  subst this
  exact hx

theorem Agree.arr {f : Nat → UInt8} {b : Bytes} {k n : Nat} (h : ∀ j, k ≤ j → j < k + n → f j = byteAt b j) :
    Agree f k (arrAt b k n).val (k + n) := by
  refine ⟨by rw [(arrAt b k n).len], ?_⟩
  intro i hi
  rw [(arrAt b k n).len] at hi
  rw [h _ (by omega) (by omega)]
  simp [arrAt, byteAt, hi]

theorem Agree.zeros {f : Nat → UInt8} {k n : Nat} (h : ∀ j, k ≤ j → j < k + n → f j = 0) :
    Agree f k (zeros n) (k + n) := by
  refine ⟨by simp [Spec.zeros], ?_⟩
  intro i hi
  have hi : i < n := by simpa [Spec.zeros] using hi
  rw [h _ (by omega) (by omega)]
  simp [Spec.zeros, byteAt, hi]

theorem be16_be16At (b : Bytes) (k : Nat) : be16 (be16At b k) = [byteAt b k, byteAt b (k + 1)] := by
  have h1 := (byteAt b k).toNat_lt
  have h2 := (byteAt b (k + 1)).toNat_lt
  have h3 : (be16At b k).toNat = 256 * (byteAt b k).toNat + (byteAt b (k + 1)).toNat := by
    rw [be16At, UInt16.toNat_ofNat']
    omega
  simp only [be16, h3]
  congr 1
  · rw [show (256 * (byteAt b k).toNat + (byteAt b (k + 1)).toNat) / 256 = (byteAt b k).toNat by omega]
    exact UInt8.ofNat_toNat
  · rw [show (256 * (byteAt b k).toNat + (byteAt b (k + 1)).toNat) % 256 = (byteAt b (k + 1)).toNat by omega,
      UInt8.ofNat_toNat]

theorem le16_le16At (b : Bytes) (k : Nat) : le16 (le16At b k) = [byteAt b k, byteAt b (k + 1)] := by
  have h1 := (byteAt b k).toNat_lt
  have h2 := (byteAt b (k + 1)).toNat_lt
  have h3 : (le16At b k).toNat = (byteAt b k).toNat + 256 * (byteAt b (k + 1)).toNat := by
    rw [le16At, UInt16.toNat_ofNat']
    omega
  simp only [le16, h3]
  congr 1
  · rw [show ((byteAt b k).toNat + 256 * (byteAt b (k + 1)).toNat) % 256 = (byteAt b k).toNat by omega]
    exact UInt8.ofNat_toNat
  · rw [show ((byteAt b k).toNat + 256 * (byteAt b (k + 1)).toNat) / 256 = (byteAt b (k + 1)).toNat by omega,
      UInt8.ofNat_toNat]

theorem Agree.be {f : Nat → UInt8} {b : Bytes} {k : Nat} (h0 : f k = byteAt b k) (h1 : f (k + 1) = byteAt b (k + 1)) :
    Agree f k (be16 (be16At b k)) (k + 2) := by
  rw [be16_be16At]
  exact .cons (.cons .nil h1.symm) h0.symm

theorem Agree.bytes {f : Nat → UInt8} {w : Bytes} {n : Nat} (h : Agree f 0 w n) : w = (List.range n).map f := by
  have hl : w.length = n := by have := h.len; omega
  apply List.ext_getElem
  · simp [hl]
  · intro i hi _
    have := h.eq i hi
    rw [byteAt, List.getElem?_eq_getElem hi] at this
    simpa using this

theorem Agree.magic {f : Nat → UInt8} {b : Bytes} (h : HeaderOK b) (hf : ∀ j, j < 8 → f j = byteAt b j) :
    Agree f 0 magic 8 := by
  refine ⟨rfl, ?_⟩
  intro i hi
  have hi : i < 8 := hi
  rw [Nat.zero_add, hf i hi, ← h.2.1, byteAt, byteAt, List.getElem?_take_of_lt hi]

theorem Agree.le {f : Nat → UInt8} {b : Bytes} {op : UInt16} (ho : opOf b = op) (h0 : f 8 = byteAt b 8)
    (h1 : f 9 = byteAt b 9) : Agree f 8 (le16 op) 10 := by
  rw [← ho, opOf, le16_le16At]
  exact .cons (.cons .nil h1.symm) h0.symm

theorem Agree.header {f : Nat → UInt8} {b : Bytes} {op : UInt16} (h : HeaderOK b) (ho : opOf b = op)
    (hf : ∀ j, j < 10 → f j = byteAt b j) (h0 : f 10 = 0) (h1 : f 11 = 14) : Agree f 0 (header op) 12 :=
  .append (.append (.magic h fun j hj => hf j (by omega)) (.le ho (hf 8 (by omega)) (hf 9 (by omega))))
    (.cons (.cons .nil h1.symm) h0.symm)

/-- What `forwarded` is for the types with a version and no variable part. -/
theorem forwarded_plain {b : Bytes} {op : UInt16} {pad : List Nat} (ho : opOf b = op) (hp : padFor op = pad)
    (h1 : op ≠ 0x2100) (h2 : op ≠ 0x5000) (i : Nat) :
    forwarded b i = if i ∈ pad then 0 else if i = 10 then 0 else if i = 11 then 14 else byteAt b i := by
  simp only [forwarded, ho, hp, h1, h2, if_false]

/-- Evaluates `forwarded` at a position that is known to lie in a segment. -/
local macro "fwd" h:term : tactic => `(tactic| (
  first
  | (rw [$h:term]; try simp only [List.mem_cons, List.not_mem_nil, or_false]
     repeat' split
     all_goals first | rfl | contradiction | omega)
  | (intro j hj; rw [$h:term]; try simp only [List.mem_cons, List.not_mem_nil, or_false]
     repeat' split
     all_goals first | rfl | contradiction | omega)
  | (intro j hj hj'; rw [$h:term]; try simp only [List.mem_cons, List.not_mem_nil, or_false]
     repeat' split
     all_goals first | rfl | contradiction | omega)))

theorem forward_poll {b : Bytes} (hh : HeaderOK b) (ho : opOf b = 0x2000) :
    Agree (forwarded b) 0 (pollImage (pollOf b)) 14 := by
  have hf := forwarded_plain ho (show padFor 0x2000 = [] by decide) (by decide) (by decide)
  refine .append (.header hh ho ?_ ?_ ?_) (.cons (.cons .nil ?_) ?_)
  all_goals first | fwd hf | (symm; fwd hf)

theorem forward_diagData {b : Bytes} (hh : HeaderOK b) (ho : opOf b = 0x2300) :
    Agree (forwarded b) 0 (diagDataImage (diagDataOf b)) 530 := by
  have hf := forwarded_plain ho (show padFor 0x2300 = [12, 14, 15] by decide) (by decide) (by decide)
  refine .append (.append (.append (.header hh ho ?_ ?_ ?_) (.cons (.cons (.cons (.cons .nil ?_) ?_) ?_) ?_)) (.be
    ?_ ?_)) (.arr ?_)
  all_goals first | fwd hf | (symm; fwd hf)

theorem forward_nzs {b : Bytes} (hh : HeaderOK b) (ho : opOf b = 0x5100) :
    Agree (forwarded b) 0 (nzsImage (nzsOf b)) 530 := by
  have hf := forwarded_plain ho (show padFor 0x5100 = [] by decide) (by decide) (by decide)
  refine .append (.append (.append (.header hh ho ?_ ?_ ?_) (.cons (.cons (.cons (.cons .nil ?_) ?_) ?_) ?_)) (.be
    ?_ ?_)) (.arr ?_)
  all_goals first | fwd hf | (symm; fwd hf)

theorem forward_sync {b : Bytes} (hh : HeaderOK b) (ho : opOf b = 0x5200) :
    Agree (forwarded b) 0 (syncImage (syncOf b)) 14 := by
  have hf := forwarded_plain ho (show padFor 0x5200 = [12, 13] by decide) (by decide) (by decide)
  refine .append (.header hh ho ?_ ?_ ?_) (.cons (.cons .nil ?_) ?_)
  all_goals first | fwd hf | (symm; fwd hf)

theorem forward_address {b : Bytes} (hh : HeaderOK b) (ho : opOf b = 0x6000) :
    Agree (forwarded b) 0 (addressImage (addressOf b)) 107 := by
  have hf := forwarded_plain ho (show padFor 0x6000 = [] by decide) (by decide) (by decide)
  refine .append (.append (.append (.append (.append (.append (.header hh ho ?_ ?_ ?_) (.cons (.cons .nil ?_) ?_))
    (.arr ?_)) (.arr ?_)) (.arr ?_)) (.arr ?_)) (.cons (.cons (.cons .nil ?_) ?_) ?_)
  all_goals first | fwd hf | (symm; fwd hf)

theorem forward_timeCode {b : Bytes} (hh : HeaderOK b) (ho : opOf b = 0x9700) :
    Agree (forwarded b) 0 (timeCodeImage (timeCodeOf b)) 19 := by
  have hf := forwarded_plain ho (show padFor 0x9700 = [12, 13] by decide) (by decide) (by decide)
  refine .append (.header hh ho ?_ ?_ ?_) (.cons (.cons (.cons (.cons (.cons (.cons (.cons .nil ?_) ?_) ?_) ?_)
    ?_) ?_) ?_)
  all_goals first | fwd hf | (symm; fwd hf)

theorem forward_trigger {b : Bytes} (hh : HeaderOK b) (ho : opOf b = 0x9900) :
    Agree (forwarded b) 0 (triggerImage (triggerOf b)) 530 := by
  have hf := forwarded_plain ho (show padFor 0x9900 = [12, 13] by decide) (by decide) (by decide)
  refine .append (.append (.append (.append (.header hh ho ?_ ?_ ?_) (.cons (.cons .nil ?_) ?_)) (.be ?_ ?_))
    (.cons (.cons .nil ?_) ?_)) (.arr ?_)
  all_goals first | fwd hf | (symm; fwd hf)

theorem forward_ipProg {b : Bytes} (hh : HeaderOK b) (ho : opOf b = 0xf800) :
    Agree (forwarded b) 0 (ipProgImage (ipProgOf b)) 34 := by
  have hf := forwarded_plain ho (show padFor 0xf800 = [12, 13, 15, 26, 27, 28, 29, 30, 31, 32, 33] by decide) (by decide) (by decide)
  refine .append (.append (.append (.append (.append (.header hh ho ?_ ?_ ?_) (.cons (.cons (.cons (.cons .nil ?_)
    ?_) ?_) ?_)) (.arr ?_)) (.arr ?_)) (.arr ?_)) (.zeros ?_)
  all_goals first | fwd hf | (symm; fwd hf)

theorem forward_ipProgReply {b : Bytes} (hh : HeaderOK b) (ho : opOf b = 0xf900) :
    Agree (forwarded b) 0 (ipProgReplyImage (ipProgReplyOf b)) 34 := by
  have hf := forwarded_plain ho (show padFor 0xf900 = [12, 13, 14, 15, 27, 28, 29, 30, 31, 32, 33] by decide) (by decide) (by decide)
  refine .append (.append (.append (.append (.append (.append (.header hh ho ?_ ?_ ?_) (.cons (.cons (.cons (.cons
    .nil ?_) ?_) ?_) ?_)) (.arr ?_)) (.arr ?_)) (.arr ?_)) (.cons .nil ?_)) (.zeros ?_)
  all_goals first | fwd hf | (symm; fwd hf)

theorem forward_command {b : Bytes} (hh : HeaderOK b) (ho : opOf b = 0x2400)
    (he : (byteAt b 12, byteAt b 13) = (0xff, 0xff)) :
    Agree (forwarded b) 0 (commandImage (commandOf b)) 528 := by
  have hf := forwarded_plain ho (show padFor 0x2400 = [] by decide) (by decide) (by decide)
  have h12 : (0xff : UInt8) = byteAt b 12 := (congrArg Prod.fst he).symm
  have h13 : (0xff : UInt8) = byteAt b 13 := (congrArg Prod.snd he).symm
  refine .append (.append (.append (.header hh ho ?_ ?_ ?_) (.cons (.cons .nil (h13.trans ?_)) (h12.trans ?_)))
    (.be ?_ ?_)) (.arr ?_)
  all_goals first | fwd hf | (symm; fwd hf)

theorem forward_dmx {b : Bytes} (hh : HeaderOK b) (ho : opOf b = 0x5000) :
    Agree (forwarded b) 0 (dmxImage (dmxOf b)) 530 := by
  have hf (i : Nat) : forwarded b i = if i = 10 then 0 else if i = 11 then 14 else if i = 16 then 2
      else if i = 17 then 0 else if 18 + (be16At b 16).toNat ≤ i then 0 else byteAt b i := by
    simp only [forwarded, ho, show padFor 0x5000 = [] by decide, List.not_mem_nil, if_false]
    rw [if_neg (by decide)]
    simp
  have hop : le16 0x5000 = [0x00, 0x50] := by decide
  have h8 := Agree.le (f := forwarded b) ho (by fwd hf) (by fwd hf)
  rw [hop] at h8
  refine .append (.append (.magic hh ?_) (.append (l := [0x00, 0x50]) h8 (.cons (.cons (.cons (.cons (.cons (.cons (.cons
    (.cons .nil ?_) ?_) ?_) ?_) ?_) ?_) ?_) ?_))) (m := 18) ⟨by rw [(dmxOf b).data.len], ?_⟩
  case refine_10 =>
    intro i hi
    rw [(dmxOf b).data.len] at hi
    rw [hf, if_neg (by omega), if_neg (by omega), if_neg (by omega), if_neg (by omega)]
    simp only [dmxOf, byteAt, List.getElem?_ofFn, hi, dif_pos, Option.getD_some]
    by_cases hl : i < (be16At b 16).toNat
    · rw [if_pos hl, if_neg (by omega)]
    · rw [if_neg hl, if_pos (by omega)]
  all_goals first | fwd hf | (symm; fwd hf)

theorem forward_pollReply {b : Bytes} (hh : HeaderOK b) (ho : opOf b = 0x2100) :
    Agree (forwarded b) 0 (pollReplyImage (pollReplyOf b 6454)) 239 := by
  have hf (i : Nat) : forwarded b i = if (197 ≤ i ∧ i < 200) ∨ (213 ≤ i ∧ i < 239) then 0
      else if i = 14 then 0x36 else if i = 15 then 0x19 else byteAt b i := by
    have hp : i ∈ padFor 0x2100 ↔ (197 ≤ i ∧ i < 200) ∨ (213 ≤ i ∧ i < 239) := by
      rw [show padFor 0x2100 = [197, 198, 199, 213, 214, 215, 216, 217, 218, 219, 220, 221, 222, 223, 224, 225,
        226, 227, 228, 229, 230, 231, 232, 233, 234, 235, 236, 237, 238] by decide]
      simp only [List.mem_cons, List.not_mem_nil, or_false]
      omega
    simp only [forwarded, ho, hp, if_true]
  have hop : le16 0x2100 = [0x00, 0x21] := by decide
  have hport : le16 6454 = [0x36, 0x19] := by decide
  have h8 := Agree.le (f := forwarded b) ho (by fwd hf) (by fwd hf)
  rw [hop] at h8
  have h14 : Agree (forwarded b) 14 (le16 6454) 16 := by
    rw [hport]
    refine .cons (.cons .nil ?_) ?_
    all_goals (symm; fwd hf)
  refine .append (.append (.append (.append (.append (.append (.append (.append (.append (.append (.append
    (.append (.append (.append (.append (.append (.append (.append (.append (.append (.append (.append
    (.append (.append (.magic hh ?_) h8) (.arr ?_)) h14) (.be ?_ ?_)) (.cons (.cons .nil ?_) ?_)) (.be ?_
    ?_)) (.cons (.cons .nil ?_) ?_)) (.arr ?_)) (.arr ?_)) (.arr ?_)) (.arr ?_)) (.be ?_ ?_)) (.arr ?_))
    (.arr ?_)) (.arr ?_)) (.arr ?_)) (.arr ?_)) (.cons (.cons (.cons .nil ?_) ?_) ?_)) (.zeros ?_)) (.cons
    .nil ?_)) (.arr ?_)) (.arr ?_)) (.cons (.cons .nil ?_) ?_)) (.zeros ?_)
  all_goals first | fwd hf | (symm; fwd hf)

end Verif.Props
