import Verif.Model.Clock
/-
Vocabulary for C156: histories that differ in the wall clock only.
-/
namespace Verif.Spec
open Artnet Packet Clock

/-- The monotonic clock counts from the start of the process; a process does not run for 292 years. -/
def Runs (r : Reading) : Prop := 0 ≤ r.mono ∧ r.mono < 9223372029854775808

/-- The wall clock shows a moment between one second after the beginning of 1885 and seven seconds before
the 16th of March 2157, 12:56:32 UTC. -/
def Contemporary (r : Reading) : Prop :=
  59453308801 * 1000000000 ≤ r.wall ∧ r.wall < 68043243385 * 1000000000

/-- A property of all clock readings of a history. -/
def EveryReading (φ : Reading → Prop) : List Event → Prop
  | [] => True
  | .reply _ r :: es => φ r ∧ EveryReading φ es
  | .gc clock :: es => (∀ k, φ (clock k)) ∧ EveryReading φ es
  | .tick _ r :: es => φ r ∧ EveryReading φ es
  | .send _ _ :: es => EveryReading φ es
  | .restart :: es => EveryReading φ es

/-- Two histories in which the same happens at the same moments of the monotonic clock. -/
def SameMoments : List Event → List Event → Prop
  | [], [] => True
  | .reply p r :: es, .reply p' r' :: es' => p = p' ∧ r.mono = r'.mono ∧ SameMoments es es'
  | .gc c :: es, .gc c' :: es' => (∀ k, (c k).mono = (c' k).mono) ∧ SameMoments es es'
  | .send d a :: es, .send d' a' :: es' => d = d' ∧ a = a' ∧ SameMoments es es'
  | .tick o r :: es, .tick o' r' :: es' => o = o' ∧ r.mono = r'.mono ∧ SameMoments es es'
  | .restart :: es, .restart :: es' => SameMoments es es'
  | _, _ => False

/-- The number that stands for a time in Model/Controller.lean: the monotonic reading, counted from `K` nanoseconds before
the start of the process; 0 for `time.Time{}`. -/
def stamp (K : Int) (t : Clock.Time) : Int := match t.mono with
  | none => 0
  | some m => m + K

/-- The operation of Model/Controller.lean, if the readings of the clocks are replaced by the numbers `κ`. -/
def readAs (κ : Reading → Int) : Event → Op
  | .reply p r => .reply p (κ r)
  | .gc clock => .gc fun k => κ (clock k)
  | .send d a => .send d a
  | .tick o r => .tick o (κ r)
  | .restart => .restart

/-- The moment by the monotonic clock, counted from `K` nanoseconds before the start of the process. -/
def since (K : Int) (r : Reading) : Int := r.mono + K

def bufferOf (σ : Clock.Time → Int) (b : Buffer) : DmxBuffer := ⟨b.data, σ b.lastUpdate, b.stale⟩

def nodeOf (σ : Clock.Time → Int) (n : Clock.Node) : ControlledNode :=
  ⟨σ n.lastSeen, n.node, n.udpAddress, n.sequence, n.dmxBuffer.map fun e => (e.1, bufferOf σ e.2)⟩

/-- The state of Model/Controller.lean, if the times are replaced by the numbers `σ`. -/
def ctrlOf (σ : Clock.Time → Int) (s : Clock.State) : Ctrl :=
  ⟨fun r => nodeOf σ (s.heap r), s.next, s.nodes, s.output, s.input, s.maxFPS⟩

end Verif.Spec
