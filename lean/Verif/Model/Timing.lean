import Verif.Model.Controller
/-
The periods of the tickers of pollLoop.
-/
namespace Verif.Artnet

/-- controller.go:20 and 130-131: the period of pollTicker and of gcTicker. -/
def pollInterval : Int := 3 * second

end Verif.Artnet
