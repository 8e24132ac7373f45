import Verif.Spec.Conc
/-
Hosts and their addresses.
-/
namespace Verif.Spec

/-- The address in 16 bytes: an IPv4 address is the IPv4-mapped IPv6 address (RFC 4291, 2.5.5.2). -/
def longForm (ip : Bytes) : Bytes := if ip.length = 4 then [0, 0, 0, 0, 0, 0, 0, 0, 0, 0, 255, 255] ++ ip else ip

end Verif.Spec
