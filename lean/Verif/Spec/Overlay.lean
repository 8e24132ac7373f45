import Verif.Spec.Example
/-
What the buffer of example/poll shows, told by the datagrams that have arrived.
-/
namespace Verif.Spec
open Artnet Packet Code

/-- The datagrams that have been read, from whatever host. -/
def arrived : List ExAct → List Bytes
  | [] => []
  | .read _ d :: as => d :: arrived as
  | _ :: as => arrived as

/-- Byte `i` of a buffer into which the datagrams were written one over the other: that of the last datagram long enough
to have one; zero if there is none. -/
def topByte (ds : List Bytes) (i : Nat) : UInt8 := ((ds.reverse.findSome? fun d => d[i]?)).getD 0

/-- The first `n` bytes of that buffer. -/
def overlay (ds : List Bytes) (n : Nat) : Bytes := (List.range n).map (topByte ds)

/-- `views before fs as`: what the parses of `as` find if the datagrams `before` have been read already. The parses take
the lengths of the datagrams `fs`, one after the other. -/
def views : List Bytes → List Bytes → List ExAct → List Bytes
  | _, _, [] => []
  | before, fs, .read _ d :: as => views (before ++ [d]) fs as
  | before, f :: fs, .parse :: as => overlay before f.length :: views before fs as
  | before, fs, _ :: as => views before fs as

end Verif.Spec
