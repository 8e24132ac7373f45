import Verif.Go.Basic
/-
A field of a datagram.
-/
namespace Verif.Spec

/-- The bytes `a` to `a + n - 1`. -/
def field (b : Bytes) (a n : Nat) : Bytes := (b.drop a).take n

end Verif.Spec
