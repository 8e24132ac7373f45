import Verif.Model.Conc
import Verif.Model.Timing
/-
The tickers of the Controller. In Model/Conc.lean the ticker cases of the selects may be chosen at any moment. Here a ticker is
a channel that holds at most one tick (time.NewTicker). While the ticker is not stopped the runtime puts a tick there whenever the
clock has reached the moment at which one is due, or later; it is lost if one is there already. The next one is due at the first
whole number of periods after the old moment that is still to come. The ticker cases of the selects take the tick out.

The argument `discards` tells what Stop does with a tick that is in the channel: nothing before Go 1.23 (and later, for a main
module that asks for an older version), and it is removed since.

Simplifications: the clock is the monotonic clock of the process in nanoseconds, 0 when the constructor is called; the moments that
time.Now returns (Model/Conc.lean) are not compared with it.
-/
namespace Verif.Conc
open Packet Code Artnet

/-- A `*time.Ticker`. -/
structure Ticker where
  /-- a tick is in the channel -/
  tick : Bool
  stopped : Bool
  period : Int
  /-- when the next tick is due -/
  due : Int
  deriving DecidableEq

/-- `time.NewTicker` -/
def Ticker.new (clock period : Int) : Ticker := ⟨false, false, period, clock + period⟩

/-- `Stop` -/
def Ticker.stop (discards : Bool) (t : Ticker) : Ticker := { t with tick := t.tick && !discards, stopped := true }

/-- The runtime sends a tick. -/
def Ticker.fire (clock : Int) (t : Ticker) : Ticker :=
  { t with tick := true, due := t.due + t.period * (1 + (clock - t.due) / t.period) }

/-- The variables that hold a ticker. -/
inductive Clockwork
  /-- Controller.pollTicker -/
  | poll
  /-- Controller.gcTicker -/
  | gc
  /-- `ticker` of dmxUpdateLoop -/
  | update
  deriving DecidableEq

/-- A system with its tickers. -/
structure Timed where
  sys : Sys
  clock : Int
  /-- every ticker made for a variable -/
  tickers : Clockwork → List Ticker
  /-- Controller.pollTicker -/
  poll : Option Nat
  /-- Controller.gcTicker -/
  gc : Option Nat
  /-- for a goroutine in the select of pollLoop: the poll ticker and the gc ticker whose channels it waits on -/
  held : Nat → Option (Nat × Nat)
  /-- for a goroutine in dmxUpdateLoop: its ticker -/
  own : Nat → Option Nat

/-- The state after the constructor. -/
def Timed.init (P : Params) : Timed := ⟨Sys.init P, 0, fun _ => [], none, none, fun _ => none, fun _ => none⟩

/-- The actions. -/
inductive TimedAct
  /-- the runtime sends a tick on the channel of a ticker -/
  | fire (q : Clockwork) (k : Nat)
  /-- time passes -/
  | pass (d : Nat)
  | act (a : Act)

/-- Other tickers for a variable. -/
def Timed.put (t : Timed) (q : Clockwork) (l : List Ticker) : Timed :=
  { t with tickers := fun r => if r = q then l else t.tickers r }

/-- Receive a tick; `none` while there is none. -/
def Timed.take (t : Timed) (q : Clockwork) (k : Option Nat) : Option Timed :=
  match k with
  | none => none
  | some k =>
    match (t.tickers q)[k]? with
    | none => none
    | some x => if x.tick then some (t.put q ((t.tickers q).set k { x with tick := false })) else none

/-- Stop a ticker. -/
def Timed.halt (discards : Bool) (t : Timed) (q : Clockwork) (k : Option Nat) : Timed :=
  match k with
  | none => t
  | some k => t.put q ((t.tickers q).modify k (Ticker.stop discards))

/-- Make a ticker. -/
def Timed.make (t : Timed) (q : Clockwork) (period : Int) : Timed :=
  t.put q (t.tickers q ++ [Ticker.new t.clock period])

/-- What an action does with the tickers; `none` while it waits for a tick. -/
def Timed.follow (discards : Bool) (P : Params) (t : Timed) : Act → Option Timed
  -- controller.go:130-131
  | .listen ok =>
    if ok && P.controller then
      some { (t.make .poll pollInterval).make .gc pollInterval with
        poll := some (t.tickers .poll).length
        gc := some (t.tickers .gc).length }
    else some t
  -- controller.go:140-141
  | .stop => if P.controller then some ((t.halt discards .poll t.poll).halt discards .gc t.gc) else some t
  | .run i c =>
    match t.sys.threads[i]?, c with
    -- controller.go:174-175, 183: the channels are evaluated when the select is entered
    | some .plTop, _ =>
      match t.poll, t.gc with
      | some p, some g => some { t with held := fun j => if j = i then some (p, g) else t.held j }
      | _, _ => none
    -- controller.go:175
    | some (.plWait _ _), .tick => t.take .poll ((t.held i).map Prod.fst)
    -- controller.go:183
    | some (.plWait _ _), .gcTick => t.take .gc ((t.held i).map Prod.snd)
    -- controller.go:236-237
    | some .duInit, _ =>
      match tickerPeriod P.maxFPS with
      | .error _ => some t
      | .ok d => some { t.make .update d with
          own := fun j => if j = i then some (t.tickers .update).length else t.own j }
    -- controller.go:260
    | some (.duWait _), .tick => t.take .update (t.own i)
    | _, _ => some t
  | _ => some t

/-- The state after an action; `none` when it is not possible. -/
def Timed.exec (discards : Bool) (P : Params) (t : Timed) : TimedAct → Option Timed
  | .fire q k =>
    match (t.tickers q)[k]? with
    | none => none
    | some x => if !x.stopped && x.due ≤ t.clock then some (t.put q ((t.tickers q).set k (x.fire t.clock))) else none
  | .pass d => some { t with clock := t.clock + d }
  | .act a =>
    match t.sys.exec P a with
    | none => none
    | some s => (t.follow discards P a).map fun t => { t with sys := s }

/-- The state after a list of actions. -/
def Timed.execs (discards : Bool) (P : Params) (t : Timed) : List TimedAct → Option Timed
  | [] => some t
  | a :: as =>
    match t.exec discards P a with
    | none => none
    | some t => t.execs discards P as

end Verif.Conc
