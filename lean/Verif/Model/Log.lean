import Verif.Go.Basic
/-
logger.go: the fields that every log entry carries. What is written, and where, is not modelled; values are strings.
-/
namespace Verif.Artnet

/-- logger.go:18-20: the fields of the logrus entry. -/
abbrev Logger := GoMap String String

/-- logger.go:23-47 -/
def newDefaultLogger : Logger := []

/-- logger.go:50-52 -/
def newLogger (entry : GoMap String String) : Logger := entry

/-- logger.go:55-57. logrus copies the fields of the entry and then assigns the new ones. -/
def Logger.with (l : Logger) (fields : List (String × String)) : Logger := fields.foldl (fun m f => GoMap.set m f.1 f.2) l

/-- node.go:65 -/
def nodeLog (log : Logger) : Logger := Logger.with log [("type", "Node")]

/-- The fields `log` and `cNode.log` of a Controller. -/
structure CtrlLogs where
  log : Logger
  node : Logger

/-- controller.go:104-110 -/
def CtrlLogs.new (log : Logger) : CtrlLogs := { log := log, node := nodeLog log }

/-- controller.go:124-125 -/
def CtrlLogs.start (c : CtrlLogs) : CtrlLogs :=
  let c := { c with node := Logger.with c.log [("type", "Node")] }
  { c with log := Logger.with c.log [("type", "Controller")] }

/-- The loggers after `n` calls of Start. -/
def CtrlLogs.starts (c : CtrlLogs) : Nat → CtrlLogs
  | 0 => c
  | n + 1 => (c.starts n).start

end Verif.Artnet
