import Verif.Model.Conc
/-
Access to the connection.
-/
namespace Verif.Conc

/-- node.go:92-94 -/
def Sys.connection (s : Sys) : Option Nat := s.conn

end Verif.Conc
