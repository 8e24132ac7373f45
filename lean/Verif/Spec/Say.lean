import Verif.Model.Say
/-
What a reader of the log gathers from it.
-/
namespace Verif.Conc
open Packet Code Artnet

/-- The destination and the size of a datagram that was written. -/
def Line.sent? : Line → Option (UDPAddr × Nat)
  | .sent dst n => some (dst, n)
  | _ => none

/-- The source and the size of a datagram that was read. -/
def Line.received? : Line → Option (UDPAddr × Nat)
  | .received src n => some (src, n)
  | _ => none

/-- The source and the contents of a datagram that did not decode. -/
def Line.unparsed? : Line → Option (Bytes × Bytes)
  | .unparsed ip d _ => some (ip, d)
  | _ => none

/-- A packet without call-back. -/
def Line.unhandled? : Line → Option AnyPacket
  | .unhandled p => some p
  | _ => none

/-- The entry of a Start that accepts the configuration. -/
def Line.starts : Line → Bool
  | .started _ _ => true
  | _ => false

/-- The known nodes, by address and name, after an entry. -/
def Line.follow (l : List (Bytes × Bytes)) : Line → List (Bytes × Bytes)
  | .added name ip => l ++ [(ip, name)]
  | .updated name ip => l.map fun e => if e.1 = ip then (ip, name) else e
  | .stale name ip => l.erase (ip, name)
  | _ => l

/-- The addresses and names of the nodes that the Controller knows, in order. -/
def nodeNames (c : Ctrl) : List (Bytes × Bytes) := c.nodes.map fun r => ((c.heap r).node.ip, (c.heap r).node.name)

end Verif.Conc
