import Verif.Model.Setup
/-
Model of the programs under example/.

example/node and example/controller choose an address of the host; example/poll broadcasts an ArtPoll and prints the
replies; example/simpledmx sends one ArtDMX datagram. Printing is not modelled, except that the configurations that
example/poll prints are recorded. `net.InterfaceAddrs` returns `*net.IPNet` values only (as on Linux), so that the type
assertion on them does not fail; errors from `net.ResolveUDPAddr` and `net.ListenUDP` end the programs and are not
modelled.
-/
namespace Verif.Artnet
open Packet Code

/-- `net.IPNet.Contains` (Go standard library) for an IPv4 network: `nn` and `m` have four bytes. -/
def netContains (nn m ip : Bytes) : Bool :=
  let ip := if (to4 ip).isEmpty then ip else to4 ip
  if ip.length ≠ nn.length then false
  else List.zipWith (· &&& ·) nn m == List.zipWith (· &&& ·) ip m

/-- example/node/main.go:15-16 and example/controller/main.go:13-14: `2.0.0.0/8`. -/
def exampleNet (ip : Bytes) : Bool := netContains [2, 0, 0, 0] [0xff, 0, 0, 0] ip

/-- example/node/main.go:25-30: the loop, with the present value of `ip`. -/
def chooseFrom (ip : Bytes) : List Bytes → Bytes
  | [] => ip
  | a :: as => if exampleNet a then a else chooseFrom a as

/-- example/node/main.go:23-30, the same at example/controller/main.go:21-28. -/
def chooseIP (addrs : List Bytes) : Bytes := chooseFrom [] addrs

/-- example/node/main.go:33 -/
def exampleNode (addrs : List Bytes) : NodeSetup :=
  newNode "node-1".toUTF8.toList StyleCode.stNode (chooseIP addrs) []

/-- example/controller/main.go:31 -/
def exampleController (addrs : List Bytes) : ControllerSetup :=
  newController "controller-1".toUTF8.toList (chooseIP addrs) []

/-- example/poll/main.go:16-17 -/
def examplePollIP : Bytes := [2, 12, 12, 12]

/-- example/poll/main.go:25-26 -/
def examplePollSent : Bytes := (ArtPoll.new.marshalBinary).2.1

/-- The goroutine that reads in example/poll. -/
inductive ExReader
  /-- At `conn.ReadFromUDP(buf)` (line 47). -/
  | read
  /-- At `recvCh <- buf[:n]` (line 58). -/
  | send (n : Nat)
  deriving DecidableEq, Repr

/-- The main goroutine of example/poll. -/
inductive ExMain
  /-- At the select (line 63). -/
  | wait
  /-- Has received `buf[:n]`, about to parse it (line 65). -/
  | got (n : Nat)
  /-- Returned (line 75). -/
  | done
  /-- The type assertion failed (line 70). -/
  | panicked
  deriving DecidableEq, Repr

/-- The state of example/poll after the ArtPoll has been sent. The slice that goes through the channel shares its
memory with `buf`. `handed` and `printed` record the past. -/
structure ExPoll where
  buf : Bytes
  reader : ExReader
  main : ExMain
  /-- The contents of the slices at the moment of the communication. -/
  handed : List Bytes
  printed : List NodeConfig

/-- example/poll/main.go:40-45 -/
def ExPoll.init : ExPoll := ⟨List.replicate 4096 0, .read, .wait, [], []⟩

/-- What can happen next. -/
inductive ExAct
  /-- A datagram arrives and is read. -/
  | read (src : UDPAddr) (d : Bytes)
  /-- A read fails. -/
  | readError
  /-- The communication on `recvCh`, which has no buffer. -/
  | hand
  /-- The main goroutine goes on. -/
  | parse
  /-- The timer fires and the main goroutine takes that case. -/
  | timeout

/-- One step; `none` if it is not possible. When the main goroutine has returned or panicked the process ends. The parse
reads the buffer in one step. -/
def ExPoll.step (s : ExPoll) : ExAct → Option ExPoll
  -- example/poll/main.go:47-58
  | .read src d =>
    match s.reader, s.main with
    | _, .done | _, .panicked => none
    | .send _, _ => none
    | .read, _ =>
      let s := { s with buf := copyInto s.buf d }
      if ipEqual src.ip examplePollIP then some s
      else some { s with reader := .send (min 4096 d.length) }
  -- example/poll/main.go:48-52
  | .readError =>
    match s.reader, s.main with
    | _, .done | _, .panicked => none
    | .send _, _ => none
    | .read, _ => some s
  -- example/poll/main.go:58, 64
  | .hand =>
    match s.reader, s.main with
    | .send n, .wait => some { s with reader := .read, main := .got n, handed := s.handed ++ [s.buf.take n] }
    | _, _ => none
  -- example/poll/main.go:65-71
  | .parse =>
    match s.main with
    | .got n =>
      match unmarshal (s.buf.take n) with
      | .error _ => some { s with main := .panicked }
      | .ok (_, some _) => some { s with main := .wait }
      | .ok (some (.pollReply p), none) =>
        some { s with main := .wait, printed := s.printed ++ [configFromArtPollReply p] }
      | .ok (_, none) => some { s with main := .panicked }
    | _ => none
  -- example/poll/main.go:73-75
  | .timeout =>
    match s.main with
    | .wait => some { s with main := .done }
    | _ => none

/-- Several steps. -/
def ExPoll.steps (s : ExPoll) : List ExAct → Option ExPoll
  | [] => some s
  | a :: as => (s.step a).bind fun s => s.steps as

/-- example/simpledmx/main.go:26-33 -/
def exampleDMX : Bytes :=
  ({ ArtDMX.new with
    sequence := 1
    data := (Arr.zero 512).copyFrom [0xff, 0x00, 0x00, 0xff, 0x00] }.marshalBinary).2.1

end Verif.Artnet
