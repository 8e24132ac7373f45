import Verif.Lemmas.Announce
import Verif.Props.Config
import Verif.Props.Encode
/-
What an error of validate tells, and the text fields of an announcement: C110, C111.
-/
namespace Verif.Props
open Spec Packet Code Artnet

/-! ### C110 -/

/-- The message is true: the number of ports is the one that is too large, or the first input port whose protocol differs
from that of the output port with the same number is named, together with the two protocols. Ports are counted from 1. -/
def Describes (c : NodeConfig) : ConfigErr → Prop
  | .tooManyInputs n => n = c.inputPorts.length ∧ 4 < n
  | .tooManyOutputs n => n = c.outputPorts.length ∧ 4 < n
  | .typeMismatch a i b => ∃ k p q, i = k + 1 ∧ i ≤ 4 ∧ c.inputPorts[k]? = some p ∧ c.outputPorts[k]? = some q ∧
      a = PortType.type p.type ∧ b = PortType.type q.type ∧ a ≠ b ∧
      ∀ j p q, j < k → c.inputPorts[j]? = some p → c.outputPorts[j]? = some q → PortType.type p.type = PortType.type q.type

/-- C110 as stated: every error of validate describes what is wrong. -/
def C110_statement : Prop := ∀ (c : NodeConfig) (e : ConfigErr), c.validate = .ok (some e) → Describes c e

/-- Five output ports and no input port. -/
def cfg5 : NodeConfig := { NodeConfig.zero with outputPorts := List.replicate 5 ⟨⟨0, 1⟩, 0, 0⟩ }

/-- The message is "more than 4 output ports configured (0)". -/
theorem C110_false : ¬ C110_statement := by
  intro h
  have h1 := h cfg5 (.tooManyOutputs 0) rfl
  exact absurd h1.1 (by decide)

/-- C110 as far as it holds: the error describes what is wrong unless there are too many output ports; then it says so, but
with the number of input ports, which is at most four. Each of the three errors is returned exactly when there are too many
inputs, when there are too many outputs only, and when the numbers are right. -/
theorem C110_partial (c : NodeConfig) (e : ConfigErr) (h : c.validate = .ok (some e)) :
    (c.outputPorts.length ≤ 4 ∨ 4 < c.inputPorts.length → Describes c e) ∧
    (4 < c.inputPorts.length → e = .tooManyInputs c.inputPorts.length) ∧
    (c.inputPorts.length ≤ 4 → 4 < c.outputPorts.length → e = .tooManyOutputs c.inputPorts.length) ∧
    (c.inputPorts.length ≤ 4 → c.outputPorts.length ≤ 4 → ∃ a i b, e = .typeMismatch a i b) := by
  unfold NodeConfig.validate at h
  by_cases h1 : c.inputPorts.length > 4
  · rw [if_pos h1] at h
    injection h with h
    injection h with h
    subst h
    exact ⟨fun _ => ⟨rfl, h1⟩, fun _ => rfl, fun h => by omega, fun h => by omega⟩
  · rw [if_neg h1] at h
    by_cases h2 : c.outputPorts.length > 4
    · rw [if_pos h2] at h
      injection h with h
      injection h with h
      subst h
      exact ⟨fun h => by omega, fun h => by omega, fun _ _ => rfl, fun _ h => by omega⟩
    · rw [if_neg h2] at h
      obtain ⟨k, p, q, _, h2, rfl, h4, h5, h6, h7⟩ := validateFrom_first c 4 0 rfl h
      refine ⟨fun _ => ⟨k, p, q, rfl, h2, h4, h5, rfl, rfl, h6, fun j a b => h7 j a b (Nat.zero_le _)⟩, fun h => by omega,
        fun _ h => by omega, fun _ _ => ⟨_, _, _, rfl⟩⟩

/-- The second port is DMX512 as an input and MIDI as an output. -/
def cfgMixed : NodeConfig := { NodeConfig.zero with
  inputPorts := [⟨⟨0, 1⟩, 0, 0⟩, ⟨⟨0, 2⟩, 0, 0⟩]
  outputPorts := [⟨⟨0, 1⟩, 0, 0⟩, ⟨⟨0, 2⟩, 1, 0⟩] }

example : cfgMixed.validate = .ok (some (.typeMismatch "DMX512" 2 "MIDI")) := by
  simp [NodeConfig.validate, NodeConfig.validateFrom, cfgMixed, idxL, bind, Except.bind, PortType.type, pure, Except.pure]
  rfl

/-! ### C111 -/

/-- C111 as stated: in the announcement of every configuration the short name, the long name and the report end with a zero
byte, as Art-Net demands. -/
def C111_statement : Prop := ∀ (c : NodeConfig) (p : ArtPollReply), artPollReplyFromConfig c = .ok p →
  0 ∈ field (p.marshalBinary).2.1 26 18 ∧ 0 ∈ field (p.marshalBinary).2.1 44 64 ∧ 0 ∈ field (p.marshalBinary).2.1 108 64

/-- C111 as far as it holds. The fields hold the first 18 (64) bytes of the text, filled up with zeros; a field ends with a
zero byte exactly if the text is shorter than the field or has a zero byte itself. -/
theorem C111_partial (c : NodeConfig) (p : ArtPollReply) (h : artPollReplyFromConfig c = .ok p) :
    (field (p.marshalBinary).2.1 26 18 = c.name.take 18 ++ List.replicate (18 - c.name.length) 0 ∧
     field (p.marshalBinary).2.1 44 64 = c.description.take 64 ++ List.replicate (64 - c.description.length) 0 ∧
     field (p.marshalBinary).2.1 108 64 = c.report.take 64 ++ List.replicate (64 - c.report.length) 0) ∧
    (0 ∈ field (p.marshalBinary).2.1 26 18 ↔ c.name.length < 18 ∨ 0 ∈ c.name.take 18) ∧
    (0 ∈ field (p.marshalBinary).2.1 44 64 ↔ c.description.length < 64 ∨ 0 ∈ c.description.take 64) ∧
    (0 ∈ field (p.marshalBinary).2.1 108 64 ↔ c.report.length < 64 ∨ 0 ∈ c.report.take 64) := by
  rw [artPollReplyFromConfig_eq] at h
  injection h with h
  subst h
  have hi : (announced c).marshalBinary.2.1 = pollReplyImage (announced c) := by rw [C23_pollreply_image]
  rw [hi]
  obtain ⟨h1, h2, h3⟩ := fields (announced c)
  have e1 : (announced c).shortName.val = _ := copyFrom_take 18 c.name
  have e2 : (announced c).longName.val = _ := copyFrom_take 64 c.description
  have e3 : (announced c).nodeReport.val = _ := copyFrom_take 64 c.report
  rw [h1, h2, h3, e1, e2, e3]
  exact ⟨⟨rfl, rfl, rfl⟩, ended_iff _ _, ended_iff _ _, ended_iff _ _⟩

/-- A name of 18 letters. -/
theorem C111_false : ¬ C111_statement := by
  intro h
  have h1 := (h { NodeConfig.zero with name := List.replicate 18 0x61 } _ (artPollReplyFromConfig_eq _)).1
  rw [(C111_partial _ _ (artPollReplyFromConfig_eq _)).2.1] at h1
  revert h1
  decide +kernel

/-- The names of the sample configuration are short enough. -/
example : cfg1.name.length < 18 ∧ cfg1.name ≠ [] ∧ cfg1.description.length < 64 ∧ cfg1.report.length < 64 ∧
    ∃ p, artPollReplyFromConfig cfg1 = .ok p := ⟨by decide, by decide, by decide, by decide, _, artPollReplyFromConfig_eq _⟩

end Verif.Props
