import Verif.Spec.Record
import Verif.Lemmas.Announce
import Verif.Props.Config
/-
Every field of what a controller knows about a node: C34 and C37 without gaps.
-/
namespace Verif.Props
open Spec Packet Code Artnet

theorem textIn_eq (b : Bytes) : decodeString b = textIn b := by
  have hr : latin1Utf8 = runeString := by
    funext x
    exact forall_u8 (P := fun x => latin1Utf8 x = runeString x) (by decide +kernel) x
  rw [decodeString_eq, textIn, hr]

theorem fourBytes_eq (ip : Bytes) : ((Arr.zero 4).copyFrom (to4 ip)).val = fourBytes ip := by
  rw [copyFrom_take, to4, fourBytes, show v4InV6Prefix = [0, 0, 0, 0, 0, 0, 0, 0, 0, 0, 0xff, 0xff] from rfl]
  split
  · next h => rw [h, List.take_of_length_le (by omega)]; simp
  · split
    · next h =>
      have hl : (ip.drop 12).length = 4 := by rw [List.length_drop]; omega
      rw [hl, List.take_of_length_le (by omega)]; simp
    · rfl

theorem announcedType_eq (c : NodeConfig) (i : Nat) : portTypeVal c i = announcedType c i := by
  have h : ∀ t : UInt8, PortType.withType 0xc0 (PortType.type t) = 128 + 64 + protocolNumber t ∧
      PortType.withType 0x80 (PortType.type t) = 128 + protocolNumber t ∧
      PortType.withType 0x40 (PortType.type t) = 64 + protocolNumber t :=
    forall_u8 (P := fun t => PortType.withType 0xc0 (PortType.type t) = 128 + 64 + protocolNumber t ∧
      PortType.withType 0x80 (PortType.type t) = 128 + protocolNumber t ∧
      PortType.withType 0x40 (PortType.type t) = 64 + protocolNumber t) (by decide +kernel)
  unfold portTypeVal announcedType
  cases c.outputPorts[i]? with
  | none =>
    cases c.inputPorts[i]? with
    | none => rfl
    | some q => exact (h _).2.2
  | some o =>
    cases c.inputPorts[i]? with
    | none => exact (h _).2.1
    | some q => exact (h _).1

/-- C37, every field: what a controller reads from a reply is the record of that reply. -/
theorem C37_record (p : ArtPollReply) : configFromArtPollReply p = recordOf p := by
  obtain ⟨h1, h2⟩ := discovered_ports p
  rw [configFromArtPollReply_eq] at h1 h2 ⊢
  simp only at h1 h2
  simp only [h1, h2, textIn_eq]
  rfl

/-- C34, every field: a controller comes to know exactly the announced record of a node. -/
theorem C34_record (c d : NodeConfig) (hv : ValidConfig c) (hs : c.type < 7) :
    Discovers c d ↔ d = announcedRecord c := by
  rw [discovers_iff c d hs]
  have e : rediscovered c = announcedRecord c := by
    obtain ⟨hi, ho⟩ := rediscovered_ports c hv.1 hv.2.1
    unfold rediscovered at hi ho ⊢
    rw [configFromArtPollReply_eq] at hi ho ⊢
    simp only at hi ho
    simp only [hi, ho, textIn_eq, announcedType_eq]
    simp only [announced, fourBytes_eq]
    simp only [copyFrom_take]
    rfl
  rw [e]

/-- A node called "Zür" in Latin-1, with a v4-in-v6 address a report and a port number. -/
def cfgZ : NodeConfig := { cfg1 with
  name := [0x5a, 0xfc, 0x72]
  ip := [0, 0, 0, 0, 0, 0, 0, 0, 0, 0, 0xff, 0xff, 10, 0, 0, 5]
  report := [0x6f, 0x6b]
  port := 99 }

example : ValidConfig cfgZ ∧ cfgZ.type < 7 ∧ (announcedRecord cfgZ).name = [0x5a, 0xc3, 0xbc, 0x72] ∧
    (announcedRecord cfgZ).ip = [10, 0, 0, 5] ∧ (announcedRecord cfgZ).port = 6454 ∧
    (announcedRecord cfgZ).outputPorts = [⟨⟨1, 2⟩, 0xc0, 0⟩, ⟨⟨1, 2⟩, 0x85, 0⟩] :=
  ⟨cfg1_valid, by decide, by decide, by decide, by decide, by decide⟩

example : recordOf { ArtPollReply.new with
      numPorts := 9
      netSwitch := 3
      subSwitch := 0x20
      shortName := (Arr.zero 18).copyFrom [0x61, 0x62]
      portTypes := ⟨[0x80, 0x40, 0xc5, 0], rfl⟩
      swOut := ⟨[1, 2, 3, 4], rfl⟩ } =
    { NodeConfig.zero with
      name := [0x61, 0x62]
      baseAddress := ⟨3, 0x20⟩
      report := List.replicate 64 0
      ethernet := List.replicate 6 0
      ip := [0, 0, 0, 0]
      bindIP := [0, 0, 0, 0]
      inputPorts := [⟨⟨3, 0x20⟩, 0x40, 0⟩, ⟨⟨3, 0x20⟩, 0xc5, 0⟩]
      outputPorts := [⟨⟨3, 0x21⟩, 0x80, 0⟩, ⟨⟨3, 0x23⟩, 0xc5, 0⟩] } := by decide +kernel

end Verif.Props
