import Verif.Lemmas.Names
/-
Properties of the registers and code tables: C24–C29.
-/
namespace Verif.Props
open Spec Code

/-! ### C24, C25 -/

/-- C24: every flag getter reads its documented bit, and setting the flag makes that bit one and leaves
the other seven alone. -/
theorem C24_flag_bits (f : Flag) (hf : f ∈ flags) (s : UInt8) :
    f.get s = bitOf s f.bit ∧ f.get (f.set s true) = true ∧
    ∀ k, k < 8 → bitOf (f.set s true) k = (k == f.bit || bitOf s k) := by
  obtain ⟨k, hk, hg, hs⟩ := flag_generic f hf
  rw [hg, hs, hk]
  exact forall_u8 (P := fun s => ∀ k : Fin 8, genGet k s = bitOf s k ∧
    genGet k (genSet k s true) = true ∧
    ∀ j, j < 8 → bitOf (genSet k s true) j = (j == k.val || bitOf s j)) (by decide +kernel) s k

example : ∃ f ∈ flags, f.name = "Status2.DHCP" ∧ f.get 0 = false ∧ f.get (f.set 0 true) = true := by
  decide

/-- C25 as stated. -/
def C25_statement : Prop := ∀ f ∈ flags, ∀ (s : UInt8) (b : Bool), f.get (f.set s b) = b

/-- C25 is false of the code for every single flag: WithX(false) does not clear the bit. -/
theorem C25_never_clears (f : Flag) (hf : f ∈ flags) (s : UInt8) : f.set s false = s := by
  obtain ⟨k, _, _, hs⟩ := flag_generic f hf
  rw [hs]
  exact forall_u8 (P := fun s => ∀ k : Fin 8, genSet k s false = s) (by decide +kernel) s k

theorem C25_false : ¬ C25_statement := by
  intro h
  have := h ⟨"Status2.DHCP", 1, Status2.dhcp, Status2.withDHCP⟩ (by simp [flags]) 0xff false
  revert this
  decide

/-- C25, the part that holds: WithX(b).X() is `b` when the flag was clear, and true when `b` is true. -/
theorem C25_partial (f : Flag) (hf : f ∈ flags) (s : UInt8) (b : Bool) :
    f.get (f.set s b) = (b || f.get s) := by
  cases b with
  | true => rw [(C24_flag_bits f hf s).2.1]; rfl
  | false => rw [C25_never_clears f hf]; rfl

example : ∃ f ∈ flags, f.get (f.set 0 false) = false ∧ f.get (f.set 0 true) = true := by decide

/-! ### C26 -/

/-- C26 as stated: on a register whose field (bits 5-4, bits 7-6) is clear the value reads back. -/
def C26_statement : Prop :=
  (∀ s : UInt8, s &&& 0x30 = 0 → ∀ v ∈ ["unknown", "front", "net", "unused"],
    Status1.portAddr (Status1.withPortAddr s v) = v) ∧
  (∀ s : UInt8, s &&& 0xc0 = 0 → ∀ v ∈ ["unknown", "locate", "mute", "normal"],
    Status1.indicator (Status1.withIndicator s v) = v)

/-- WithPortAddr("net") reads back "unknown": the getter masks bits 4-3. -/
theorem C26_portaddr_net : Status1.portAddr (Status1.withPortAddr 0 "net") = "unknown" := by decide

/-- WithIndicator("normal") reads back "locate": the getter masks bits 6-5. -/
theorem C26_indicator_normal : Status1.indicator (Status1.withIndicator 0 "normal") = "locate" := by
  decide

theorem C26_false : ¬ C26_statement := by
  intro h
  have := h.1 0 (by decide) "net" (by decide)
  rw [C26_portaddr_net] at this
  exact absurd this (by decide)

/-- C26, the part that holds: the two values whose high bit is zero read back; the setters write the
documented two bits and nothing else; and the getters depend on the low bit of their field only, so
"net", "unused", "mute" and "normal" are never reported. -/
theorem C26_partial (s : UInt8) :
    (s &&& 0x30 = 0 → ∀ v ∈ ["unknown", "front"], Status1.portAddr (Status1.withPortAddr s v) = v) ∧
    (s &&& 0xc0 = 0 → ∀ v ∈ ["unknown", "locate"], Status1.indicator (Status1.withIndicator s v) = v) ∧
    (∀ e ∈ [("unknown", (0 : UInt8)), ("front", 1), ("net", 2), ("unused", 3)],
      Status1.withPortAddr s e.1 = s ||| (e.2 <<< 4)) ∧
    (∀ e ∈ [("unknown", (0 : UInt8)), ("locate", 1), ("mute", 2), ("normal", 3)],
      Status1.withIndicator s e.1 = s ||| (e.2 <<< 6)) ∧
    Status1.portAddr s = (if bitOf s 4 then "front" else "unknown") ∧
    Status1.indicator s = (if bitOf s 6 then "locate" else "unknown") :=
  forall_u8 (P := fun s => (s &&& 0x30 = 0 → ∀ v ∈ ["unknown", "front"],
      Status1.portAddr (Status1.withPortAddr s v) = v) ∧
    (s &&& 0xc0 = 0 → ∀ v ∈ ["unknown", "locate"], Status1.indicator (Status1.withIndicator s v) = v) ∧
    (∀ e ∈ [("unknown", (0 : UInt8)), ("front", 1), ("net", 2), ("unused", 3)],
      Status1.withPortAddr s e.1 = s ||| (e.2 <<< 4)) ∧
    (∀ e ∈ [("unknown", (0 : UInt8)), ("locate", 1), ("mute", 2), ("normal", 3)],
      Status1.withIndicator s e.1 = s ||| (e.2 <<< 6)) ∧
    Status1.portAddr s = (if bitOf s 4 then "front" else "unknown") ∧
    Status1.indicator s = (if bitOf s 6 then "locate" else "unknown")) (by decide +kernel) s

example : (0x0f : UInt8) &&& 0x30 = 0 ∧ Status1.portAddr (Status1.withPortAddr 0x0f "front") = "front" := by
  decide

/-! ### C27 -/

/-- An undocumented protocol string leaves the register as it is. -/
theorem withType_other (s : UInt8) (v : String) (h : v ∉ protocols.map Prod.fst) :
    PortType.withType s v = s := by
  simp only [protocols, List.map_cons, List.map_nil, List.mem_cons, List.not_mem_nil, or_false,
    not_or] at h
  simp [PortType.withType, h]

/-- C27: the six documented protocols read back on a register with clear protocol bits; direction
flags do not disturb the protocol, and WithType with any string does not disturb the direction flags. -/
theorem C27_porttype (s : UInt8) :
    (s &&& 0x1f = 0 → ∀ e ∈ protocols, PortType.type (PortType.withType s e.1) = e.1 ∧
      PortType.withType s e.1 = s ||| e.2) ∧
    (∀ b, PortType.type (PortType.withInput s b) = PortType.type s ∧
      PortType.type (PortType.withOutput s b) = PortType.type s) ∧
    (∀ v : String, PortType.input (PortType.withType s v) = PortType.input s ∧
      PortType.output (PortType.withType s v) = PortType.output s) := by
  refine ⟨?_, ?_, ?_⟩
  · exact forall_u8 (P := fun s => s &&& 0x1f = 0 → ∀ e ∈ protocols,
      PortType.type (PortType.withType s e.1) = e.1 ∧ PortType.withType s e.1 = s ||| e.2)
      (by decide +kernel) s
  · exact forall_u8 (P := fun s => ∀ b, PortType.type (PortType.withInput s b) = PortType.type s ∧
      PortType.type (PortType.withOutput s b) = PortType.type s) (by decide +kernel) s
  · intro v
    by_cases h : v ∈ protocols.map Prod.fst
    · exact forall_u8 (P := fun s => ∀ v ∈ protocols.map Prod.fst,
        PortType.input (PortType.withType s v) = PortType.input s ∧
        PortType.output (PortType.withType s v) = PortType.output s) (by decide +kernel) s v h
    · rw [withType_other s v h]; exact ⟨rfl, rfl⟩

example : (0xc0 : UInt8) &&& 0x1f = 0 ∧ PortType.type (PortType.withType 0xc0 "Art-Net") = "Art-Net" := by
  decide

/-! ### C28, C29 -/

/-- C28: the String methods never panic, print every declared constant by its name, and never print
two different values alike. -/
theorem C28_strings :
    ((∀ o, ∃ s, OpCode.str o = .ok s) ∧ (∀ e ∈ opNames, OpCode.str e.1 = .ok e.2) ∧
      ∀ a b, OpCode.str a = OpCode.str b → a = b) ∧
    ((∀ o, ∃ s, StyleCode.str o = .ok s) ∧ (∀ e ∈ styleNames, StyleCode.str e.1 = .ok e.2) ∧
      ∀ a b, StyleCode.str a = StyleCode.str b → a = b) ∧
    ((∀ o, ∃ s, NodeReportCode.str o = .ok s) ∧ (∀ e ∈ reportNames, NodeReportCode.str e.1 = .ok e.2) ∧
      ∀ a b, NodeReportCode.str a = NodeReportCode.str b → a = b) ∧
    ((∀ e ∈ priorityNames, PriorityCode.str e.1 = e.2) ∧
      ∀ a b, PriorityCode.str a = PriorityCode.str b → a = b) := by
  refine ⟨⟨fun o => ⟨_, OpCode.str_eq o⟩, ?_, ?_⟩, ⟨fun o => ⟨_, StyleCode.str_eq o⟩, ?_, ?_⟩,
    ⟨fun o => ⟨_, NodeReportCode.str_eq o⟩, ?_, ?_⟩, ?_, ?_⟩
  · have : ∀ e ∈ opNames, render opNames "OpCode(" UInt16.toNat e.1 = e.2 := by decide +kernel
    intro e he; rw [OpCode.str_eq, this e he]
  · intro a b h
    rw [OpCode.str_eq, OpCode.str_eq] at h
    injection h with h
    exact render_inj (fun a b h => UInt16.toNat_inj.mp h) (by decide) (by decide +kernel)
      (by decide +kernel) h
  · have : ∀ e ∈ styleNames, render styleNames "StyleCode(" UInt8.toNat e.1 = e.2 := by decide +kernel
    intro e he; rw [StyleCode.str_eq, this e he]
  · intro a b h
    rw [StyleCode.str_eq, StyleCode.str_eq] at h
    injection h with h
    exact render_inj (fun a b h => UInt8.toNat_inj.mp h) (by decide) (by decide +kernel)
      (by decide +kernel) h
  · have : ∀ e ∈ reportNames, render reportNames "NodeReportCode(" UInt8.toNat e.1 = e.2 := by
      decide +kernel
    intro e he; rw [NodeReportCode.str_eq, this e he]
  · intro a b h
    rw [NodeReportCode.str_eq, NodeReportCode.str_eq] at h
    injection h with h
    exact render_inj (fun a b h => UInt8.toNat_inj.mp h) (by decide) (by decide +kernel)
      (by decide +kernel) h
  · decide +kernel
  · intro a b h
    rw [PriorityCode.str_eq, PriorityCode.str_eq] at h
    exact render_inj (fun a b h => UInt8.toNat_inj.mp h) (by decide) (by decide +kernel)
      (by decide +kernel) h

example : (0x5000, "OpOutput") ∈ opNames ∧ ((0x0b : UInt8), "RcSwitchErr") ∈ reportNames := by decide

/-- C29: ValidOp holds exactly for the 35 declared operation codes and ValidStyle exactly for the seven
declared style codes. -/
theorem C29_valid :
    (∀ o, OpCode.validOp o = true ↔ o ∈ opNames.map Prod.fst) ∧ opNames.length = 35 ∧
    (∀ s, StyleCode.validStyle s = true ↔ s ∈ styleNames.map Prod.fst) ∧ styleNames.length = 7 := by
  refine ⟨fun o => ?_, rfl, ?_, rfl⟩
  · rw [validOp_iff, decide_eq_true_iff]
    have : OpCode.mapTable.map Prod.fst = opNames.map Prod.fst := by decide
    rw [this]
  · exact fun s => forall_u8 (P := fun s => StyleCode.validStyle s = true ↔ s ∈ styleNames.map Prod.fst)
      (by decide +kernel) s

example : OpCode.validOp 0xa010 = true ∧ OpCode.validOp 0x2001 = false ∧
    StyleCode.validStyle 6 = true ∧ StyleCode.validStyle 7 = false := by decide

end Verif.Props
