import Verif.Spec.Kinds
/-
What a forwarded datagram looks like.
-/
namespace Verif.Spec

/-- Byte `i` of the datagram that a forwarder of the datagram `b` sends: filler and spare bytes are zero; the
version is 14; an ArtPollReply (without a version) has port 0x1936, low byte first; an ArtDMX has 512 channels,
those that were not in `b` are zero. All other bytes are those of `b`. -/
def forwarded (b : Bytes) (i : Nat) : UInt8 :=
  if i ∈ padFor (opOf b) then 0
  else if opOf b = 0x2100 then
    if i = 14 then 0x36 else if i = 15 then 0x19 else byteAt b i
  else if i = 10 then 0
  else if i = 11 then 14
  else if opOf b = 0x5000 then
    if i = 16 then 2 else if i = 17 then 0
    else if 18 + (be16At b 16).toNat ≤ i then 0 else byteAt b i
  else byteAt b i

end Verif.Spec
