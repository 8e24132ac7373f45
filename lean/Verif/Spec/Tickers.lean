import Verif.Model.Tickers
import Verif.Spec.Order
/-
What is said of the tickers: the ticks that the program receives, the actions of the program, and executions in which pollLoop
receives nothing after Stop.
-/
namespace Verif.Conc
open Packet Code Artnet Spec

/-- The actions of the program, without those of the runtime. -/
def programActs (as : List TimedAct) : List Act :=
  as.filterMap fun
    | .act a => some a
    | _ => none

/-- The variable from whose ticker a goroutine receives a tick. -/
def receives (s : Sys) : Act → Option Clockwork
  | .run i .tick => match s.threads[i]? with
    | some (.plWait _ _) => some .poll
    | some (.duWait _) => some .update
    | _ => none
  | .run i .gcTick => match s.threads[i]? with
    | some (.plWait _ _) => some .gc
    | _ => none
  | _ => none

/-- How often a tick is received while the actions happen. -/
def ticksReceived (P : Params) (q : Clockwork) (s : Sys) : List Act → Nat
  | [] => 0
  | a :: as => (if receives s a = some q then 1 else 0) + match s.exec P a with
    | none => 0
    | some s' => ticksReceived P q s' as

/-- The ticker of a variable that the goroutine of an action waits on. -/
def tickerOf (t : Timed) (q : Clockwork) : Act → Option Nat
  | .run i _ => match q with
    | .poll => (t.held i).map Prod.fst
    | .gc => (t.held i).map Prod.snd
    | .update => t.own i
  | _ => none

/-- A tick of ticker `k` of a variable is received. -/
def receivesFrom (q : Clockwork) (k : Nat) (t : Timed) : TimedAct → Bool
  | .act a => decide (receives t.sys a = some q) && decide (tickerOf t q a = some k)
  | _ => false

/-- How often a tick of ticker `k` of a variable is received. -/
def ticksTaken (discards : Bool) (P : Params) (q : Clockwork) (k : Nat) (t : Timed) : List TimedAct → Nat
  | [] => 0
  | a :: as => (if receivesFrom q k t a then 1 else 0) + match t.exec discards P a with
    | none => 0
    | some t' => ticksTaken discards P q k t' as

/-- How often the runtime sends a tick on the channel of a ticker. -/
def ticksSent (q : Clockwork) (k : Nat) (as : List TimedAct) : Nat :=
  as.countP fun
    | .fire r j => decide (r = q ∧ j = k)
    | _ => false

/-- pollLoop receives no tick once Stop has been called. -/
def QuietAfterStop (P : Params) (as : List Act) : Prop :=
  ∀ pre a post s, as = pre ++ a :: post → Act.stop ∈ pre → (Sys.init P).execs P pre = some s →
    receives s a ≠ some .poll ∧ receives s a ≠ some .gc

/-- An ArtDMX for a universe: Net in byte 15, SubUni in byte 14. -/
def isDmxFor (a : Address) (p : Payload) : Bool := isDmx p && byteAt p.data 15 == a.net && byteAt p.data 14 == a.subUni

/-- Stop is called before a Start succeeds again. -/
def stopsFirst : List Act → Bool
  | [] => false
  | .stop :: _ => true
  | .listen true :: _ => false
  | _ :: as => stopsFirst as

/-- After every Start that succeeds, Stop is called before the next one succeeds. -/
def stopsEvery : List Act → Bool
  | [] => true
  | .listen true :: as => stopsFirst as && stopsEvery as
  | _ :: as => stopsEvery as

end Verif.Conc
