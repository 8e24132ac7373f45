import Verif.Spec.Fair
import Verif.Spec.Net
import Verif.Spec.Config
import Verif.Spec.Controller
/-
Infinite executions of a network of hosts, and what is assumed of the network for statements about what happens eventually.
-/
namespace Verif.Net
open Artnet Code Conc Spec

/-- An infinite execution in which a session is on at every host. The past of every host is arbitrary, except that every
Start waited for the goroutines of the session before. -/
structure NetExec (N : Setting) where
  state : Nat → State
  event : Nat → Event
  len : (state 0).length = N.hosts.length
  first : ∀ (j : Nat) (h : Host) (s : Sys), N.hosts[j]? = some h → (state 0)[j]? = some s → TidyReach h.params s
  next : ∀ n, N.exec (state n) (event n) = some (state (n + 1))
  alive : ∀ n, ∀ s ∈ state n, s.crashed = none
  session : ∀ n, ∀ s ∈ state n, s.on
  tidy : ∀ n j, event n ≠ .act j .start

/-- A call of RegisterCallback, which has no effect within a session. -/
def rest : Act := .register 0 (.user 0)

/-- What host `j` does at time `n`. -/
def NetExec.act {N : Setting} (e : NetExec N) (j n : Nat) : Act :=
  match e.event n with
  | .act j' a => if j' = j then a else rest
  | .deliver k m j' i =>
    if j' = j then
      match N.hosts[k]?, (e.state n)[k]? with
      | some h, some t =>
        match t.wire[m]? with
        | some p => .run i (.read h.addr p.data)
        | none => rest
      | _, _ => rest
    else rest

/-- What a goroutine of a host can do again and again it does again and again. -/
def NetExec.Fair {N : Setting} (e : NetExec N) : Prop :=
  ∀ (j : Nat) (h : Host) (i : Nat) (t : Thread), N.hosts[j]? = some h →
    (∀ n, ∃ m, n ≤ m ∧ ∃ s, (e.state m)[j]? = some s ∧ s.ready h.params i t) →
    ∀ n, ∃ m, n ≤ m ∧ ∃ s c, (e.state m)[j]? = some s ∧ s.threads[i]? = some t ∧ (Act.run i c).quiet = true ∧
      e.event m = .act j (.run i c)

/-- No write of any host fails. -/
def NetExec.Writes {N : Setting} (e : NetExec N) : Prop :=
  ∀ n j i, e.event n ≠ .act j (.run i .fail)

/-- At time `n` the datagram `p` of host `k` is delivered to host `j`. -/
def NetExec.delivers {N : Setting} (e : NetExec N) (k : Nat) (p : Payload) (j n : Nat) : Prop :=
  ∃ m i t, e.event n = .deliver k m j i ∧ (e.state n)[k]? = some t ∧ t.wire[m]? = some p

/-- Every datagram that is written is delivered to every host that it can reach. -/
def NetExec.Reliable {N : Setting} (e : NetExec N) : Prop :=
  ∀ (k j n m : Nat) (s t : Sys) (p : Payload), (e.state 0)[k]? = some s → (e.state n)[k]? = some t →
    s.wire.length ≤ m → t.wire[m]? = some p → j < N.hosts.length → N.reaches k p.address j = true →
    ∃ n' i, e.event n' = .deliver k m j i

/-- What is written again and again is delivered again and again to every host that it can reach. -/
def NetExec.FairLossy {N : Setting} (e : NetExec N) : Prop :=
  ∀ (k j : Nat) (p : Payload), j < N.hosts.length → N.reaches k p.address j = true →
    (∀ c, ∃ n t, (e.state n)[k]? = some t ∧ c ≤ t.wire.count p) → ∀ n, ∃ n', n ≤ n' ∧ e.delivers k p j n'

/-- Host `k` is a controller and host `j` a node with the built-in call-backs, a poll of `k` reaches `j`, a reply of `j`
reaches `k`, and neither takes the other for itself. -/
structure NetExec.Meet {N : Setting} (e : NetExec N) (k j : Nat) (hk hj : Host) : Prop where
  left : N.hosts[k]? = some hk
  right : N.hosts[j]? = some hj
  controller : hk.params.controller = true
  style : hk.params.config.type = StyleCode.stController
  tracked : hj.params.config.type = StyleCode.stNode ∨
    (hj.params.config.type = StyleCode.stController ∧ hj.params.config.outputPorts ≠ [])
  hears : ∀ s, (e.state 0)[k]? = some s → s.callbacks.get OpCode.opPollReply = some .pollReply
  answers : ∀ s, (e.state 0)[j]? = some s → s.callbacks.get OpCode.opPoll = some .poll
  there : N.reaches k hk.params.ctrlBroadcast j = true
  back : N.reaches j hj.params.broadcast k = true
  other : ¬ SameAddress hj.params.localIP hk.addr.ip
  other' : ¬ SameAddress hk.params.localIP hj.addr.ip

/-- A session is on at the host, nothing has panicked, no goroutine holds the result of a failed read, and the frame rate is
one with which the update loop can start. -/
structure Healthy (P : Params) (s : Sys) : Prop where
  tidy : TidyReach P s
  on : s.on
  alive : s.crashed = none
  read : ∀ b, .rdCheck b none ∉ s.threads
  calls : s.callable
  rate : P.controller = true → 1 ≤ P.maxFPS ∧ P.maxFPS ≤ 1000000000

/-- Every host is healthy. -/
def HealthyNet (N : Setting) (n : State) : Prop := n.length = N.hosts.length ∧
  ∀ (j : Nat) (h : Host) (s : Sys), N.hosts[j]? = some h → n[j]? = some s → Healthy h.params s

/-- The tickers of host `j` fire again and again. -/
structure NetExec.Ticks {N : Setting} (e : NetExec N) (j : Nat) : Prop where
  poll : ∀ n, ∃ m, n ≤ m ∧ ∃ (s : Sys) (i g k : Nat), (e.state m)[j]? = some s ∧ s.threads[i]? = some (.plWait g k) ∧
    e.event m = .act j (.run i .tick)
  gc : ∀ n, ∃ m, n ≤ m ∧ ∃ (s : Sys) (i g k : Nat), (e.state m)[j]? = some s ∧ s.threads[i]? = some (.plWait g k) ∧
    e.event m = .act j (.run i .gcTick)
  dmx : ∀ n, ∃ m, n ≤ m ∧ ∃ (s : Sys) (i k : Nat), (e.state m)[j]? = some s ∧ s.threads[i]? = some (.duWait k) ∧
    e.event m = .act j (.run i .tick)

/-- No datagram is delivered twice to the same host. -/
def NetExec.Once {N : Setting} (e : NetExec N) : Prop :=
  ∀ n n' k m j i i', e.event n = .deliver k m j i → e.event n' = .deliver k m j i' → n = n'

/-- The lock is free, a node with the announced configuration is known, and if it has output ports its base address is
routed to it. -/
def Knows (s : Sys) (c : NodeConfig) : Prop :=
  s.lock = false ∧ ∃ r ∈ s.ctrl.nodes, Discovers c (s.ctrl.heap r).node ∧
    (c.outputPorts ≠ [] → Routed s.ctrl c.baseAddress r)

end Verif.Net
