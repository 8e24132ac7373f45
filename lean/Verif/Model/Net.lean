import Verif.Model.Conc
/-
Several hosts that run the library, and the network between them.

Every host is a process with one Node or Controller (Model/Conc.lean). The network may lose, delay, reorder and duplicate
datagrams; it neither changes them nor makes them up. Which hosts a destination address reaches is a parameter.
-/
namespace Verif.Net
open Artnet Conc

/-- A host: the Node or Controller that it runs, and the source address of what it writes. -/
structure Host where
  params : Params
  addr : UDPAddr

/-- The hosts, and whether what host `k` sends to an address can get to host `j`. -/
structure Setting where
  hosts : List Host
  reaches : Nat → UDPAddr → Nat → Bool

/-- The state: one process per host. What has been sent so far is in the field `wire` of the processes. -/
abbrev State := List Sys

inductive Event
  /-- Something happens on host `j`, other than the arrival of a datagram. -/
  | act (j : Nat) (a : Act)
  /-- Goroutine `i` of host `j` reads datagram number `m` of host `k`. -/
  | deliver (k m j i : Nat)

/-- The action is the arrival of a datagram. -/
def reads : Act → Bool
  | .run _ (.read _ _) => true
  | _ => false

def Setting.init (N : Setting) : State := N.hosts.map fun h => Sys.init h.params

/-- Host `j` does `a`. -/
def Setting.local (N : Setting) (n : State) (j : Nat) (a : Act) : Option State :=
  match N.hosts[j]?, n[j]? with
  | some h, some s => (s.exec h.params a).map (n.set j)
  | _, _ => none

/-- One event; `none` if it is not possible. -/
def Setting.exec (N : Setting) (n : State) : Event → Option State
  | .act j a => if reads a then none else N.local n j a
  | .deliver k m j i =>
    match N.hosts[k]?, n[k]? with
    | some h, some s =>
      match s.wire[m]? with
      | none => none
      | some p => if N.reaches k p.address j then N.local n j (.run i (.read h.addr p.data)) else none
    | _, _ => none

/-- Several events. -/
def Setting.execs (N : Setting) (n : State) : List Event → Option State
  | [] => some n
  | e :: es =>
    match N.exec n e with
    | none => none
    | some n => N.execs n es

end Verif.Net
