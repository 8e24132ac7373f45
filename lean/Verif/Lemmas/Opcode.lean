import Verif.Lemmas.Encode
import Verif.Lemmas.Pad
/-
Helper lemmas: dispatch versus ValidOp, decoder types, padding of marshalled packets.
-/
namespace Verif
open Spec Packet Code

theorem arr_ofFn_get {n : Nat} (f : Fin n → UInt8) (i : Fin n) :
    Arr.get (⟨List.ofFn f, List.length_ofFn⟩ : Arr n) i = f i := by
  simp [Arr.get]

theorem get_isSome_iff {V : Type} (m : List (OpCode × V)) (o : OpCode) :
    (GoMap.get m o).isSome = decide (o ∈ m.map Prod.fst) := by
  induction m with
  | nil => rfl
  | cons e m ih =>
    obtain ⟨k, v⟩ := e
    by_cases h : k = o
    · simp [GoMap.get, h]
    · have h' : ¬ o = k := fun hc => h hc.symm
      simp [GoMap.get, h, h', ih]

theorem validOp_iff (o : OpCode) : OpCode.validOp o = decide (o ∈ OpCode.mapTable.map Prod.fst) :=
  get_isSome_iff _ _

/-- Every opcode falls in exactly one class of the switch, according to ValidOp. -/
theorem dispatch_classify (o : OpCode) :
    (OpCode.validOp o = false ∧ dispatch o = .error (.invalidOpCodeDispatch o)) ∨
    (OpCode.validOp o = true ∧ dispatch o = .error (.notImplementedOpCode o)) ∨
    (OpCode.validOp o = true ∧ o = 0x7000 ∧ dispatch o = .error (.unimplemented o)) ∨
    (OpCode.validOp o = true ∧ ∃ p, dispatch o = .ok p ∧ opcodeFor p = o) := by
  rw [validOp_iff]
  by_cases h : o ∈ OpCode.mapTable.map Prod.fst
  · right
    simp only [h, decide_true, true_and]
    simp only [OpCode.mapTable, List.map_cons, List.map_nil, List.mem_cons, List.not_mem_nil,
      or_false] at h
    rcases h with h | h | h | h | h | h | h | h | h | h | h | h | h | h | h | h | h | h | h | h | h |
      h | h | h | h | h | h | h | h | h | h | h | h | h | h <;> subst h <;>
    first
    | exact Or.inl rfl
    | exact Or.inr (Or.inl ⟨rfl, rfl⟩)
    | exact Or.inr (Or.inr ⟨_, rfl, rfl⟩)
  · left
    refine ⟨by simp [h], ?_⟩
    simp only [OpCode.mapTable, List.map_cons, List.map_nil, List.mem_cons, List.not_mem_nil, or_false,
      not_or] at h
    have hn : o ∉ notImplemented := by
      intro hm
      simp only [notImplemented, List.mem_cons, List.not_mem_nil, or_false] at hm
      rcases hm with h' | h' | h' | h' | h' | h' | h' | h' | h' | h' | h' | h' | h' | h' | h' | h' |
        h' | h' | h' | h' | h' | h' <;> subst h' <;> exact absurd h (by decide)
    have e (k : OpCode) (hk : k ∈ OpCode.mapTable.map Prod.fst) : ¬ o = k := by
      intro hc
      subst hc
      revert hk h
      simp only [OpCode.mapTable, List.map_cons, List.map_nil, List.mem_cons, List.not_mem_nil,
        or_false]
      intro h hk
      simp [h] at hk
    unfold dispatch
    rw [if_neg (e _ (by decide)), if_neg (e _ (by decide)), if_neg (e _ (by decide)),
      if_neg (e _ (by decide)), if_neg (e _ (by decide)), if_neg (e _ (by decide)),
      if_neg (e _ (by decide)), if_neg (e _ (by decide)), if_neg (e _ (by decide)),
      if_neg (e _ (by decide)), if_neg (e _ (by decide)), if_neg (e _ (by decide)),
      if_neg (e _ (by decide)), if_neg hn]

theorem dmx_any_of {p : ArtDMX} {b : Bytes} {r : ArtDMX × Option Err}
    (h : p.unmarshalBinary b = .ok r) : (AnyPacket.dmx p).unmarshalBinary b = .ok (.dmx r.1, r.2) := by
  simp only [AnyPacket.unmarshalBinary, h, bind, Except.bind, pure, Except.pure]

theorem ArtDMX.unmarshal_ok (p : ArtDMX) (b : Bytes) (h : 18 ≤ b.length) (hne : opOf b ≠ 0x0021)
    (hk : HdrOK b) (hl : DmxLenOK b) :
    p.unmarshalBinary b = .ok ({ dmxOf b with
      data := ⟨List.ofFn fun i : Fin 512 =>
        if i.val < (be16At b 16).toNat then byteAt b (18 + i) else p.data.get i,
        List.length_ofFn⟩ }, none) := by
  rw [ArtDMX.unmarshal_eq p b h, if_pos (fun hc => hne ((be16_pollReply_iff b).mp hc)),
    (header_validate_ok b).2 hk]
  simp only [if_pos hl]
  rfl

/-- UnmarshalBinary does not change the dynamic type. -/
theorem unmarshalBinary_kind (p : AnyPacket) (b : Bytes) (r : AnyPacket) (e : Option Err)
    (h : p.unmarshalBinary b = .ok (r, e)) : opcodeFor r = opcodeFor p := by
  cases p with
  | dmx p =>
    simp only [AnyPacket.unmarshalBinary, bind, Except.bind] at h
    split at h
    · simp at h
    · simp only [pure, Except.pure] at h
      injection h with h; injection h with h _; subst h; rfl
  | _ =>
    simp only [AnyPacket.unmarshalBinary] at h
    injection h with h; injection h with h _; subst h; rfl


/-- Position `i` lies in a blank field of the layout. -/
def blankAt : List Field → Nat → Bool
  | [], _ => false
  | f :: fs, i =>
    if i < f.size then (match f with | .blank _ => true | _ => false) else blankAt fs (i - f.size)

theorem encVals_blank (fs : List Field) (v : Vals fs) (i : Nat) (h : blankAt fs i = true) :
    byteAt (encVals fs v) i = 0 := by
  induction fs generalizing i with
  | nil => simp [blankAt] at h
  | cons f fs ih =>
    obtain ⟨x, v⟩ := v
    simp only [encVals, byteAt, blankAt] at *
    by_cases hi : i < f.size
    · rw [List.getElem?_append_left (by rw [encField_length]; exact hi)]
      rw [if_pos hi] at h
      cases f with
      | blank n =>
        simp only [encField, List.getElem?_replicate]
        split <;> rfl
      | _ => simp at h
    · rw [List.getElem?_append_right (by rw [encField_length]; omega), encField_length]
      rw [if_neg hi] at h
      exact ih v _ h

theorem marshal_pad_zero (p : AnyPacket) (i : Nat) (hi : i ∈ padFor (opcodeFor p)) :
    byteAt (p.marshalBinary).2.1 i = 0 := by
  cases p with
  | poll p =>
    have hb : ∀ i ∈ padFor (opcodeFor (.poll p)), blankAt (GoStruct.layout ArtPoll) i = true := by
      simp only [opcodeFor]; decide
    exact encVals_blank _ (GoStruct.toVals p.finish) i (hb i hi)
  | pollReply p =>
    have hb : ∀ i ∈ padFor (opcodeFor (.pollReply p)), blankAt (GoStruct.layout ArtPollReply) i = true := by
      simp only [opcodeFor]; decide
    exact encVals_blank _ (GoStruct.toVals p.finish) i (hb i hi)
  | diagData p =>
    have hb : ∀ i ∈ padFor (opcodeFor (.diagData p)), blankAt (GoStruct.layout ArtDiagData) i = true := by
      simp only [opcodeFor]; decide
    exact encVals_blank _ (GoStruct.toVals p.finish) i (hb i hi)
  | command p =>
    have hb : ∀ i ∈ padFor (opcodeFor (.command p)), blankAt (GoStruct.layout ArtCommand) i = true := by
      simp only [opcodeFor]; decide
    exact encVals_blank _ (GoStruct.toVals p.finish) i (hb i hi)
  | dmx p =>
    have hb : ∀ i ∈ padFor (opcodeFor (.dmx p)), blankAt (GoStruct.layout ArtDMX) i = true := by
      simp only [opcodeFor]; decide
    exact encVals_blank _ (GoStruct.toVals p.finish) i (hb i hi)
  | nzs p =>
    have hb : ∀ i ∈ padFor (opcodeFor (.nzs p)), blankAt (GoStruct.layout ArtNzs) i = true := by
      simp only [opcodeFor]; decide
    exact encVals_blank _ (GoStruct.toVals p.finish) i (hb i hi)
  | sync p =>
    have hb : ∀ i ∈ padFor (opcodeFor (.sync p)), blankAt (GoStruct.layout ArtSync) i = true := by
      simp only [opcodeFor]; decide
    exact encVals_blank _ (GoStruct.toVals p.finish) i (hb i hi)
  | address p =>
    have hb : ∀ i ∈ padFor (opcodeFor (.address p)), blankAt (GoStruct.layout ArtAddress) i = true := by
      simp only [opcodeFor]; decide
    exact encVals_blank _ (GoStruct.toVals p.finish) i (hb i hi)
  | timeCode p =>
    have hb : ∀ i ∈ padFor (opcodeFor (.timeCode p)), blankAt (GoStruct.layout ArtTimeCode) i = true := by
      simp only [opcodeFor]; decide
    exact encVals_blank _ (GoStruct.toVals p.finish) i (hb i hi)
  | trigger p =>
    have hb : ∀ i ∈ padFor (opcodeFor (.trigger p)), blankAt (GoStruct.layout ArtTrigger) i = true := by
      simp only [opcodeFor]; decide
    exact encVals_blank _ (GoStruct.toVals p.finish) i (hb i hi)
  | ipProg p =>
    have hb : ∀ i ∈ padFor (opcodeFor (.ipProg p)), blankAt (GoStruct.layout ArtIPProg) i = true := by
      simp only [opcodeFor]; decide
    exact encVals_blank _ (GoStruct.toVals p.finish) i (hb i hi)
  | ipProgReply p =>
    have hb : ∀ i ∈ padFor (opcodeFor (.ipProgReply p)), blankAt (GoStruct.layout ArtIPProgReply) i = true := by
      simp only [opcodeFor]; decide
    exact encVals_blank _ (GoStruct.toVals p.finish) i (hb i hi)

end Verif
