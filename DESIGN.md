# Formal model of jsimonetti/go-artnet in Lean 4 — design

The properties are listed in `properties.jsonl` (C01…); `MANIFEST.json` maps each one to
theorems. The Lean project is in `lean/`; `Verif.lean` imports every module.

## Layers

| Lean module (under `lean/Verif/`) | Contents |
|---|---|
| `Go/Basic.lean` | Go run-time semantics used by the code: byte slices, fixed arrays `[n]byte`, index/slice panics, `copy`, maps, `net.IP.To4/Equal`, `bytes.Equal` |
| `Go/Binary.lean` | `encoding/binary.Write/Read` on fixed-size structs (big endian, blank fields, short reads) |
| `Model/Code.lean` | `packet/code/*.go` (registers, opcodes, styles, stringers), `version/version.go` |
| `Model/Packet.lean` | `packet/header.go`, all twelve `packet/art*.go`, `packet/packet.go` |
| `Model/Config.lean` | `config.go` |
| `Model/Controller.lean` | `controller.go` data path: node table, routing maps, DMX buffers, gc, ticks. Each critical section of `Controller.nodeLock` is one operation |
| `Model/Setup.lean` | `NewNode`, `NewController`, options, constructors' results, `version` |
| `Model/Conc.lean` | `node.go` and `controller.go` goroutines, channels, lock, socket and life cycle calls as an interleaving state machine |
| `Model/Callers.lean` | Start, Stop, RegisterCallback and DeregisterCallback made by any number of goroutines at once, statement by statement |
| `Model/Log.lean` | the fields of the loggers of a Node and of a Controller (logger.go) |
| `Model/Say.lean` | the log entries of node.go and controller.go: which step of `Model/Conc.lean` writes which entry with which values |
| `Model/Access.lean` | `Node.Connection` |
| `Model/Memory.lean` | what happens before what (Go memory model): the shared variables each step of `Model/Conc.lean` reads and writes, the locks, channels and `go` statements that order them |
| `Model/Reader.lean` | programs that read the exported fields Nodes, OutputAddress and InputAddress, in the order of `Model/Memory.lean` |
| `Model/Fine.lean` | the critical sections of gcNode, updateNode and SendDMXToAddress cut into small steps in any way |
| `Model/Slice.lean` | the field Nodes as a slice: arrays in memory, `append` in place or into a new array, removal within the array, slices read earlier |
| `Model/Timing.lean` | the poll interval |
| `Model/Tickers.lean` | the three tickers of a Controller: when a tick is sent, the channel that holds it, which loop receives it, which ticker Stop stops |
| `Model/Example.lean` | the programs under `example/`: choice of the address, the two goroutines of `example/poll`, the datagrams that are sent |
| `Model/Net.lean` | several hosts, each of which runs the library, and the network between them |
| `Check/Vectors.lean` | all test vectors of the repository's own `*_test.go` files, evaluated in the model (tests of the model's fidelity, not theorems) |
| `Spec/*.lean` | small independent specifications (wire images, register bit tables, observations of executions, …) |
| `Props/*.lean` | the property theorems, one file per group, with an `example` beside each |
| `Lemmas/*.lean` | proof helpers and invariants; nothing in `Props` is stated through them |

## Modelling decisions

* `byte`, `uint8` and all named types over it are `UInt8`; `uint16` types are `UInt16`
  (wrap-around arithmetic, as in Go). `int` is `Nat`/`Int`: the only `int` computations are
  lengths and the frame rate. Overflow of `int` and of `time.Duration` is not modelled; C156_rate shows that the arithmetic with the frame rate does not overflow.
* `[n]byte` is `Arr n` (list with a length proof); slices and strings are `List UInt8`.
* A method with pointer receiver returns the new receiver value. `(T, error)` becomes
  `T × Option Err`. A panic is the `Except.error` of the `Go` monad; every slice index and slice
  expression of hand-written parsing code goes through the checked accessors, so that "never panics"
  is a theorem and not an artefact of totalisation.
* `encoding/binary` is modelled by a schema interpreter: each packet struct gives the list of its
  fields, exactly as reflection sees it; round trip is proved once for every schema.
* Pointers to `ControlledNode` are references into a heap, because `Nodes`, `OutputAddress` and
  `InputAddress` share them.
* Go map iteration order is an arbitrary permutation supplied as an argument and universally
  quantified in theorems.
* Time is an integer number of nanoseconds since the zero `time.Time` (`Model/Clock.lean` has the `time.Time` of the library, with the wall clock and the monotonic clock; C156_model and C156_steady show that the number is enough); each `time.Now()` is an
  argument (for gc: a stream, because the code re-reads the clock at every list element).
* Goroutines are program counters; one action = one communication or one statement block between
  communications. Channels are FIFO lists with capacity 10. `select` with several ready cases is a
  scheduler choice. Every `Start` makes a new generation of channels; the old generations stay, because
  goroutines of an earlier session may still hold them.

## Simplifications of the concurrent model

* Memory is sequentially consistent. The unsynchronised accesses of the code (to `n.shutdownCh`,
  `n.conn`, `n.callbacks`, `n.shutdown` in Start) are single steps. `Model/Memory.lean` adds the
  happens-before order of the Go memory model; C150_partial proves that the executions of one session have no data race, so that for
  them sequential consistency is what Go guarantees. What a data race does to the values (C150_false, C78_false: after a restart, or
  when call-backs are registered after Stop) is not modelled.
* gcNode, updateNode and SendDMXToAddress are one step each, from Lock to Unlock. `Model/Fine.lean` cuts them into small steps; C154 shows
  that nothing else can be reached this way unless Start is called in the middle of a section.
* `Model/Controller.lean` has a list of references for the slice `Nodes`. `Model/Slice.lean` has the arrays; C151 shows that the two agree
  whatever capacity the runtime gives to new arrays. Slices that begin in the middle of an array are not modelled (there are none).
* In `Model/Memory.lean` the variables of one kind count as one (all channels of the Node; everything that nodeLock protects); the socket,
  the tickers and the logger give no order; a caller of SendDMXToAddress is a goroutine begun by the goroutine of the life cycle calls.
* In `Model/Conc.lean` `Start`, `Stop`, `RegisterCallback`, `DeregisterCallback` are called by one goroutine,
  one after the other, and the channel assignments at node.go:122-127 are one step. `Model/Callers.lean` has the
  same calls made by any number of goroutines, each assignment a step of its own, but only counts the goroutines
  that Start begins. C114_refines proves that calls that do not overlap leave the same fields in both models;
  C114-C117 say what goes wrong when they overlap.
* In `Model/Conc.lean` `Node.Config` and the options do not change after the constructor. `Model/Live.lean` lets `Node.Config`, the broadcast
  addresses and the frame rate change between any two steps; C138_refines proves that it is the same model while they do not change. Other exported
  fields (`Nodes`, `OutputAddress`, `InputAddress`) are not written by user code.
* In `Model/Conc.lean` tickers may fire at any moment, also after `Stop`: an over-approximation of `time.Ticker`. `Model/Tickers.lean` has the
  tickers themselves, with a clock; C147_refines proves that nothing new can happen there, and C147_lifts that every execution in which pollLoop
  receives nothing after Stop is possible there.
* User call-backs that are not nil return at once, without panicking; the call of a nil one panics. For safety this loses nothing: a call-back that takes its time is a goroutine that is
  not scheduled. Fairness assumes that it returns. A call-back that calls SendDMXToAddress is covered as far as the controller is concerned: the call is one of those that can be made at any moment.
* `ControlledNode.nodeLock` is only taken while `Controller.nodeLock` is held, and is not modelled.
* A read error comes with a nil address, as for every error of `ReadFromUDP` on a closed connection.
* The ghost fields (`arrived`, `accepted`, `lost`, `rejected`, `calls`, `dropped`, `wire`, `own`,
  `emitted`, `hist`, `enq`, `taken`, `results`) record the past; no step reads them.

## Networks

Model/Net.lean puts several processes of Model/Conc.lean side by side. Every event is an action of one host or the delivery
of a datagram that some host has written. The network may lose, delay, reorder and duplicate datagrams; it neither changes
nor invents them, and it delivers them with the source address of the sender (`Host.addr`). Which hosts a destination
address reaches is a parameter. Hosts that do not run the library are the subject of the claims about one host, where
everything that arrives is arbitrary.

The claims about what happens eventually in a network (C104, C105) are about infinite executions inside one session of
every host (`NetExec`, Spec/NetFair.lean). They assume fairness of every host as described below, that no write fails, and
one of two properties of the network: `Reliable` (everything written is delivered to every host it reaches) or `FairLossy`
(of equal datagrams that are written again and again, deliveries do not stop). C107 shows that these assumptions can be met
together from every state in which every host is in a session.

## Fairness

The claims about what happens eventually in one host (C88–C94, C106) are about infinite executions inside one session
(`Exec`, Spec/Fair.lean) that satisfy `Exec.Fair`: if a goroutine is, again and again, at a statement at
which it can go on, it does that statement again and again. This is what the Go runtime gives: run queues are
served in order and goroutines are preempted, the goroutines that wait at a channel or a mutex are served first
come first served (`sync.Mutex` through its starvation mode), and `select` chooses among ready cases at random, so that
a case that is ready infinitely often is taken with probability one. Two kinds of step are never forced:
a ticker firing, and a read returning. "No write fails" (`Exec.writes`) is a separate hypothesis where it is needed.
Read errors inside a session crash the process (C68), so they do not occur in an infinite execution.
C93 and C94 have the firing of the ticker as a hypothesis.
`fair_exists` (Props/Fair.lean) shows that fair executions exist, and the examples there use it.

## Trusted base

* Lean 4.33.0's kernel. No added axioms; theorems depend at most on `propext`,
  `Classical.choice`, `Quot.sound` (list at the end of this file). Concrete executions in witnesses and
  examples are evaluated in the kernel by `decide +kernel`.
* The reading of the Go source into the definitions (each cites file and lines).
* The semantics of Go and its library given in `Go/*.lean`; the behaviour of the operating system
  (UDP sockets), the logger (logrus) and user call-backs is outside the model,
  except where the state machine makes an outcome an explicit environment choice.

## Not modelled

The texts of log entries and where they are written (which entries, with which values, and the fields of the loggers are modelled); in `example/`, what is printed (except the configurations of `example/poll`), errors before the first datagram, and the set-up of the sockets; `fmt` error message texts (errors are
constructors); calls of SetOption that set the listen address of a running node (read by the next Start only); programs that write exported fields (readers are modelled, `Model/Reader.lean`); how late the runtime sends a tick; memory
exhaustion; options written by users.

## False properties

A property that the code does not satisfy has its full statement as a definition `Cnn_statement`, the
negation with a concrete witness as `Cnn_false`, and what does hold as `Cnn_partial`; in the manifest it
is `partial`, with a note saying what fails.

* C07: False as stated: wire opcode 0x0021 is reported as a version error (C07_false). C07_partial covers every other opcode. C07_exact: the classification holds of a datagram with a valid header exactly when its opcode is not 0x0021.
* C11: False as stated: the constructors of nine of the twelve packet types leave OpCode zero (C11_constructed_fresh) and marshalling does not set it, so the datagram is rejected (C11_constructor_rejected, C11_false). C11_partial covers ArtPoll, ArtDMX and ArtPollReply. C11_exact: of the packets from the constructors exactly ArtPoll, ArtPollReply and ArtDMX come back.
* C12: False as stated: MarshalBinary swaps the opcode in the receiver, and for ArtPollReply the port, so the second call of most types emits byte-swapped fields (C12_false). C12_partial covers exactly the packets for which it holds (C12_exact): ArtPoll, ArtDMX and those whose swapped bytes are equal.
* C19: False as stated: ArtDMX.UnmarshalBinary ignores the opcode and ArtPollReply.UnmarshalBinary ignores the identification (C19_dmx_accepts_nzs, C19_pollreply_ignores_magic). C19_partial covers the other combinations. C19_exact says for every packet type and every byte string exactly when UnmarshalBinary accepts it.
* C20: False as stated: ArtDMX keeps stale channels (C20_dmx_stale_tail). C20_partial covers the other eleven types and describes ArtDMX exactly. C20_exact: two ArtDMX objects decode a datagram alike exactly if they agreed on the channels beyond its length.
* C21: False as stated: only the low version byte is compared, so version 256 is rejected (C21_false). C21_partial: versions below 14 never accepted; low byte at least 14 never rejected for the version. C21_exact says exactly when Unmarshal answers an incompatible-version error, and with which byte.
* C22: False as stated: a truncated datagram with a known opcode gives a zero packet together with the error (C22_false). C22_partial covers header and dispatch errors. C22_exact says exactly when Unmarshal answers a packet together with an error.
* C25: False as stated for every flag: WithX(false) leaves the register unchanged (C25_never_clears). C25_partial: WithX(b).X() = b || X(). C25_exact: the value is read back exactly if it is true or the flag was clear.
* C26: False as stated: the getters mask the wrong bits (C26_portaddr_net, C26_indicator_normal). C26_partial gives the exact behaviour on every register. C26_exact: for every register and value, when the value is read back.
* C34: False as stated: a configuration with an undeclared style code validates but its announcement is rejected by every receiver (C34_undeclared_style, C34_false). C34_partial covers every valid configuration with one of the seven declared styles. C34_exact: for a valid configuration discovery with identity happens exactly if the style is declared. C34_record gives every field of what the controller then knows, including the report, the port, texts that are too long and addresses that are not IPv4, by a specification that calls none of the functions of config.go.
* C35: False as stated: ArtPollReplyFromConfig announces neither SwIn/SwOut nor GoodInput/GoodOutput (C35_false). C35_partial: every port comes back at the base address with status 0; index and protocol survive. C35_exact: holds exactly for configurations whose ports have the base address and an empty status.
* C36: False as stated: SubSwitch is ORed without a shift (C36_false). C36_partial gives the exact address, and shows for which switch values it is the Port-Address. C36_exact: holds exactly for announcements with the sub-net 0 and those without ports.
* C42: False as stated: expiry or update of a node removes every universe it lists, also those a live node claims (C42_false, C42_removed_takes_all). C42_partial: all other universes keep their routing. C42_exact says which replies and gc passes take away the routing of a universe.
* C46: False as stated: data sent to a universe without a buffer (announced by a known node since the last tick) is dropped and the tick sends zeros (C46_false). C46_partial: with a buffer the last write wins in every history. C46_exact: without a buffer the later datagrams carry zeros.
* C51: False as stated: the 256th packet to a node has sequence number 0 (C51_false). C51_partial: zero exactly for every 256th packet. C51_exact: holds exactly for histories in which no node was sent 256 datagrams.
* C54: False as stated: a universe that a known node newly announced has no buffer until the next tick and the data is dropped (C54_false). C54_partial: stored exactly if a buffer exists, and when buffers exist. C54_exact: kept exactly if the node claimed the universe when it became known or a tick since then found it routed to the node.
* C56: False as stated: MaxFPS 0 divides by zero, negative or above 10^9 panics in NewTicker (C56_false). C56_partial: starts exactly for 1..10^9.
* C57: False as stated: after a Start that could not listen (and returned an error) the node counts as running and registrations are ignored (C57_false). C57_partial: exact for every sequence if such a node counts as running; as stated if listening never fails. C57_exact: of the single systems only those that cannot be started have the property.
* C58: False as stated: Stop on a new node closes a nil channel, Stop after Stop a closed one, Stop on a controller that never listened uses nil tickers (C58_false and examples). C58_partial: Stop on a started node never panics and is never blocked, under every schedule. C58_exact: a call of Stop panics exactly if the node is not started or the controller has never been able to listen.
* C66: False as stated (C66_false): when recvCh is full at the moment of Stop and recvLoop takes the shutdown case, the reader waits at its send for ever, after every continuation (C66_blocked). C66_partial: if all channels are closed, no tick is being processed, no call-back is nil and at most ten items are under way, every schedule without ticks is finite and can only end with all goroutines returned (C66_terminates). C66_orderly: when every Start waits for the goroutines of the session before (TidyReach), nothing need be assumed about closed channels or about what earlier sessions left in their queues. C66_exact: after Stop, in such executions, all goroutines can return if and only if the state satisfies Settles, four inequalities between what the goroutines must still put into each queue and the room there is (a recvLoop, pollLoop or pollReplyLoop that has not returned makes room, sendLoop makes room for one datagram); C66_needed: no schedule ends otherwise, whatever tickers fire and whoever calls SendDMXToAddress.
* C67: False as stated (C67_false): when sendCh is full at the moment of Stop and sendLoop ends, the update loop waits for ever with nodeLock held, and a caller of SendDMXToAddress never returns (C67_deadlock). C67_partial: when every Start waits for the goroutines of the session before, then in every session until Stop the lock can always become free and every waiting caller can then return; after Stop with at most ten items under way see C66_orderly. C67_exact, C67_caller: after Stop, in such executions, the lock can become free, and a caller waiting for it can return, if and only if what sendCh holds and what the tick must still send is at most ten, or eleven while sendLoop has not taken its last datagram (C67_needed: no schedule otherwise); C67_waits: until then the caller stays where it is.
* C68: False as stated: a read error while running dereferences the nil source address (C68_false). C68_partial: a read error after Stop ends the reader and changes nothing else. C68_exact: the reader that got an error panics exactly if the node is started.
* C71: False as stated: the option does not reach the embedded node, whose ArtPollReply goes to the default address (C71_false). C71_partial covers the ArtPoll. C71_exact: it holds of the default address and of no other.
* C72: False as stated: Start empties the routing tables but keeps Nodes (C72_false, C72_nothing_routed). C72_partial: the next tracked reply of a node restores its routing. C72_until: after a restart a universe is unrouted until a node that lists it replies. C72_exact: holds exactly for histories after which the known nodes claim no universe.
* C74: False as stated: a controller whose first Start could not listen keeps returning that error from every later Start although it is running (C74_false). C74_partial: correct for a Node, and for a Controller for which listening never failed. C74_exact: exactly the Nodes and the systems that cannot be started have the property.
* C77: False as stated (C77_false): a Node with style StController that does not belong to a Controller has no receiver for pollReplyCh; from the eleventh ArtPollReply on every handler goroutine waits for ever (C77_leak). C77_partial: for every Controller and for every Node of another style every goroutine can always go on, in every session that starts after the goroutines of the one before have returned. C77_exact: a system has the property exactly when it is a Controller, has another style, or cannot be started.
* C78: False as stated (C78_false): after Stop has returned a handler goroutine may still be about to read the map of call-backs, which RegisterCallback then writes (C78_callbacks); a Start directly after Stop assigns the channel fields that the old loops read (C78_restart). C78_partial: there is no race if these functions are called only when they are refused or all goroutines of earlier sessions have returned. C78_exact: of the single systems only the Nodes that cannot be started have the property.
* C79: False (C79_false): the period is time.Second divided by the rate, rounded down, so at 3 fps 4 datagrams fit into one second. C79_bound gives the exact limit for every rate ((n-1)*period < 1 s); C79_partial proves the stated limit for rates that divide 10^9 (for instance 1, 2, 4, 5, 8, 10, 20, 25, 40, 50). C79_exact: the stated limit holds in every history exactly for the rates that divide 10^9.
* C80: False for styles that are not declared (C80_false: style 7, which the encoder writes and the decoder rejects); C80_partial proves it for every declared style. C80_exact: a datagram on the wire is rejected exactly if it is the announcement of an undeclared style.
* C81: False (C81_false): all ports are announced at the base address of the node, so a port elsewhere is never reached. C81_partial proves it for ports at the base address. C81_exact: the light is reached exactly if the port is at the base address.
* C83: False (C83_false): an error is returned always. Worse, C83_panics: if the node is not the last one in the list, the function panics with an index out of range. C83_partial: an unknown address changes nothing; the last node is removed with the routes of the universes it claims and the others stay.
* C87: False as stated (C87_false): after Stop and Start in quick succession the old sendLoop goes on beside the new one, and a datagram can overtake another. C87_partial: when every Start waits for the goroutines of the session before, the order is kept over all sessions; in the first session always (C87_first). C87_exact: exactly the Nodes and the systems that cannot be started have the property.
* C88: False for a Node with style StController (C88_false): nothing receives from its pollReplyCh, and the eleventh handler waits for ever. C88_partial: for Controllers, and for Nodes of any other style, each goroutine that does not rest stays where it is until it does its step, and does it. C88_call_returns: SendDMXToAddress returns in any case. The fairness assumed (Spec/Fair.lean) is that what a goroutine can do again and again it does again and again; nothing is assumed about tickers or the network. fair_exists: executions of this kind exist. C88_exact: a system has the property exactly when it is a Controller, has another style, or cannot be started.
* C96: False: the type assertion fails for every packet of another kind (C96_false), even for the echo of the program's own ArtPoll, which overwrites the shared buffer (C96_own_echo). Proved: the exact condition when nothing is read between a communication and its parse (C96_partial), and no panic at all if every datagram starts with the header of an announcement (C96_replies); and for every execution the exact condition: it panics when and only when a parse finds another packet in the buffer as all datagrams read so far have left it (C96_exact).
* C97: False: a datagram that is read before the previous one is parsed replaces it (C97_false). Proved: the datagrams are handed over unchanged, in order, once each, whatever the schedule (C97_handed), and the statement holds if nothing is read between a communication and its parse (C97_partial); for every execution what is printed is exactly what the parses find in the overwritten buffer (C97_exact); with datagrams of one length each is some host's announcement (C97_same_length), in general it can be a mixture that nobody announced (C97_mixture).
* C108: False if Start is called before the sendLoop of the session before has returned: the two sendLoops overtake each other (C108_false). Proved: inside the controller the order holds under every schedule (C108_emitted), and on the wire if every Start waits for the old goroutines (C108_partial), in particular in the first session (C108_first). C108_exact: the systems that have the property are exactly those that cannot light a lamp.
* C109: False: recvLoop begins a goroutine for every packet it can parse, and for every system that can be started and every n there is a session with n of them alive (C109_flood); the property holds exactly for the systems that cannot be started (C109_exact, C109_false). Proved: at most four loops, six for a controller, if every Start waits for the old goroutines, and never more goroutines begun for packets than payloads accepted (C109_partial); without the assumption at most that many loops for each successful listen (C109_sessions).
* C110: False for too many output ports: the message prints the number of input ports (config.go:135, C110_false). Proved for every other error, together with when each error is returned (C110_partial). C110_exact: when the error describes what is wrong.
* C111: False for a name of 18 bytes or a text of 64 (C111_false). Proved: the exact contents of the three fields, and that a field is terminated exactly if the text is shorter than it or has a zero byte itself (C111_partial). C111_exact: the texts for which the fields end with a zero byte.
* C112: False after Stop, when the closed connection is returned (C112_false). Proved: nil exactly before the first successful listen, else the newest connection, which is open while a session is on and closed when Stop has returned (C112_partial). C112_exact: of the single systems only those that cannot be started have the property.
* C114: False (C114_false): a Start that runs between the first two statements of Stop leaves a node whose flag says it runs and whose connection is open while the channel its loops watch is closed. C114_partial: it holds when no call is made before the earlier ones have returned. C114_refines: then the calls leave the fields as those of the model with one caller do. C114_exact: of the single systems only those that cannot be started have the property.
* C116: False (C116_false): a Start that replaces shutdownCh of the node between close and the wait in Controller.Stop makes that Stop wait on an open channel; C116_forever: it then waits for ever unless Stop is called again. C116_partial and C116_returns: it holds for a Node in every interleaving, and for a Controller when the calls do not overlap. C116_exact: exactly the Nodes and the systems that cannot be started have the property.
* C117: False (C117_false): RegisterCallback tests the flag and writes later without the lock, so a Start in between lets it write while the loops read the map; C117_race: two calls write at once. C117_partial: it holds when the calls do not overlap. C117_exact: no system has the property; C117_late: every system that can be started also has the first kind of race.
* C119: False (C119_false): the entries of a Controller made before its first Start have no type. C119_partial: it holds for nodes always and for a Controller from the first Start on; C119_bounded: restarting adds at most one field to those of the user.
* C120: False (C120_false): a node that moves to another universe keeps the buffer of the old one. C120_partial: a node has buffers only for universes it claimed at some time; C120_steady: one that always claims the same universes has buffers only for those; C120_bounded: never more than 65536, one per universe. C120_exact: the histories for which it holds.
* C121: False (C121_false): a node that gives up a universe and takes it back is sent the data of before. C121_partial: it holds when SendDMXToAddress was not called for the universe before; C121_kept: what is sent is what the node object held for the universe. C121_exact: it is dark if and only if the last call that reached the node set zeros, or none did.
* C122: False (C122_false): Status1 prints "unknown" for the authority "net", because the getters mask the wrong bits. C122_partial: it holds for every other register and for the flags of Status1; C122_unambiguous: the part about pairs holds for the six registers of flags. C122_exact: the values of Status1 that are printed as documented.
* C124: False (C124_false): recvLoop starts a goroutine for every packet, and a later one can be faster. C124_partial: it holds when every packet's call-back is looked up before the next packet is parsed; C124_started: what waits to be handled is always in the order of arrival, and C124_line: nothing on its way is left out. C124_exact: of the single systems only those that cannot be started have the property.
* C125: False (C125_false); C125_stale: a node announces universe 1 and then universe 2, and the controller ends up sending to universe 1. C125_partial: the order is kept when every announcement is put into pollReplyCh before the next packet is parsed. C125_exact: exactly the Nodes, the systems of another style than StController and those that cannot be started have the property.
* C127: False (C127_false): the destination is the address contained in the announcement, so one host can direct the stream to another. C127_partial: it holds if every ArtPollReply that arrives contains the address it comes from. C127_exact: the systems that have the property are exactly those that cannot light a lamp: no Controllers, of another style, with an invalid configuration or frame rate.
* C131: C131_partial: Length is not looked at; a datagram is accepted exactly if all 512 data bytes follow. C131_false: an ArtNzs with one channel is refused; C131_short: so is every correct datagram with fewer than 512 data bytes; C131_unchecked: a Length of 65535 is handed over.
* C133: False (C133_false): nodes are forgotten after 7 s and polls are 3 s apart. C133_partial: nodes that miss up to n polls in a row and answer within d always stay known exactly if n = 0 and d is at most 4 s, or n = 1 and d is at most 1 s.
* C137: C137_statement is refuted by C137_false; C137_partial is the exact outcome. C137_exact: holds exactly if all universes are on the last page.
* C138: C138_false: a renamed node announces its old name. C138_partial: where everything that enters the queue comes from; C138_next, C138_rate: when changes take effect; C138_refines: the model with changes is the model without them while nothing changes.
* C140: False at the default rate of 1000 (C140_false: number 1 is followed by 131). C140_partial: it holds for rates up to 163. C140_exact: exactly for these. C140_forgotten: a node that was forgotten and is found again is numbered from 1, which the receiver takes for old data.
* C141: False as stated: Start of a Controller returns cNode.shutdownErr, which keeps the error of an earlier Start, so a Start that has begun the loops can report failure (C141_false). C141_partial: it holds of a Node in every interleaving, and of a Controller as long as no call of net.ListenPacket has failed. C141_sound: in no state has Start returned nil without having begun the loops. C141_exact: exactly the Nodes and the systems that cannot be started have the property.
* C142: False as stated: Controller.Start assigns the tables without nodeLock, and an update loop of the session before can still be in the middle of a tick (C142_false). C142_partial: nobody but Start does, and Start does not when it waits for the goroutines of the session before. C142_start: what Start changes. C142_writers: only the goroutine that holds the lock or finds it free changes the tables. C142_readonly: no goroutine assigns a field that goroutines read without a lock. C142_exact: the systems that have the property are exactly those that cannot light a lamp.
* C148: False: the ticker of dmxUpdateLoop is never stopped (C148_false). C148_exact: the poll and gc tickers are all stopped exactly when every successful Start is followed by Stop before the next successful Start; tickers of dmxUpdateLoop never. C148_partial: the consequence for orderly callers.
* C150: False: that the goroutines have returned orders nothing, so a Start after it races with the reads of the last session (C150_false). C150_exact: true only of a Node that cannot be started. C150_partial: no data race in the calls of one session, with any schedule and any callers of SendDMXToAddress. C150_goroutines: without any assumption, every data race involves a life cycle call. C150_nodes: without any assumption, all accesses to Nodes and the buffers are ordered.
* C152: False: gcNode moves the pointers within the shared array, so a slice [A, B] becomes [B, B] when A is forgotten, and [B, C] when C appears (C152_false). C152_partial: it is unchanged as long as Nodes still lists all its nodes. C152_forgotten: otherwise, without new nodes, it lists the nodes left and then nodes of its own, the last one in the last place. C152_pointers: it never lists nil, and only nodes that have been seen. C152_moved: once Nodes is in another array the old slice never changes.
* C153: False: nodeLock is not exported, and nothing else orders a reader: reading Nodes after all goroutines have returned is a data race with the addition of a node (C153_false). C153_partial: what is read before Start is in no data race. C153_send: the caller of SendDMXToAddress comes after all that has been written so far, so its reading is in no data race with that; C153_later: but it is with what is written afterwards.
* C154: False: Controller.Start makes the two maps anew without nodeLock; called in the middle of updateNode it leaves the references of the input ports without those of the output ports (C154_false). C154_partial: if Start is not called while a section is going on, the state is that of the execution in which every section is done in one step when it unlocks. C154_during: while a section is going on everything but the lock and the tables is as with whole sections; C154_ends: a section can go on to its end; C154_whole: the executions with whole sections are among those in small steps.
* C156: False: outside 1885-2157 a time.Time has no monotonic reading, so that a clock set back by an hour stops the light for an hour (C156_false). C156_partial: it holds while the wall clock is between 1885 and 2157. C156_model: Model/Controller.lean, with one number for a time, is then exact; C156_steady: also outside, if the clock is never set; C156_epoch: the number from which it counts does not matter; C156_rate: the arithmetic with the frame rate does not overflow in 64 bits.
* C157: False: a datagram that sendLoop has taken when Stop is called is neither written nor logged (C157_false). C157_partial: the exact account at every moment: queued = entries 'sent' + entries of failed writes + in the hand of sendLoop + waiting + given up. C157_once: at most one is given up for each successful Start, and only by a sendLoop that ends; C157_running: none before Stop is called. C157_received: the entries about received datagrams are those that did not decode, those without call-back, the calls and those on their way; C157_arrived: arrivals from other hosts are the entries about them, those being looked at and those read while the Node was stopped.

## Mutation tests

`seeded/LOG.jsonl` records the wrong programs tried in a scratch copy: the definition edited,
the edit, the claim it breaks, the theorems that failed and the theorems tightened after a mutant survived.

Two methods were used. In the first the edited model is compiled against the unchanged proofs and the theorems
that no longer compile are recorded. A proof can fail for reasons of form only, so the second method is
stricter: the negation of the statement of the theorem is proved for the edited model. These lines of the
log say that the statement was refuted.

For most of the work the script of the second method wrote a line only when the refutation succeeded. The attempts that
did not succeed were added at the end, recovered from the output of the sessions: the lines with `"attempt": "inconclusive"`
and `"survived": null`, one for each pair of program and theorem, `runs` being the number of times it appears. They are not
complete, because output was often cut short, and the edit they show is the one last kept in the script. Most were
mistakes in the probe (an edit or a proof that did not compile) and were put right and refuted later under the same id; the
note of the line says which. Those that were never refuted under their id are not evidence that the theorem catches the edit:
gc6 (C43_gc_exact), c14 (C45_silent_node_forgotten), d18 (C64_wire_order), d39 (C77_partial), v06 (C119_partial), v30 (C128_recent), v30 (C43_gc_exact), ah05 (C140_partial), au07 (C153_partial), aw06 (C66_orderly), bf04 (C109_sessions). So the share of lines that say `"survived": false` is not a rate of detection: edits and witnesses were chosen
and reworked until a theorem was refuted, and edits that proved equivalent or out of the reach of a theorem were dropped or
turned against another theorem.

Theorems of `MANIFEST.json`, other than the `_false` ones, that no wrong program in the log makes fail: C19_dmx_accepts_nzs, C19_pollreply_ignores_magic, C20_dmx_stale_tail, C66_blocked, C67_deadlock, C77_leak, C78_callbacks, C78_restart, C88_exact, C96_own_echo, C97_mixture, C109_flood, C109_exact, C117_race, C117_late, C124_line, C125_stale, C130_tight, C130_controller, C140_forgotten, C153_later, C154_during, C154_whole, C155_wire, C155_after_tick, C156_epoch.
Many of these say that an execution exists, which is hard to refute; C124_line is an identity true of every state; for the
others, such as C88_exact, C109_exact and C156_epoch, no refutation has been found or tried.

## Axioms

* no axioms — C119_false, C123_values
* propext — C11_constructed_fresh, C56_false, C119_partial
* propext, Quot.sound — C01_dmx_wire_image, C07_false, C11_constructor_rejected, C11_false, C12_second_marshal_swaps, C12_false, C12_second_rejected, C12_period_two, C12_partial, C12_exact, C13_marshal_total_fixed_size, C18_padding, C19_pollreply_ignores_magic, C21_false, C22_false, C22_partial, C23_wire_layout, C23_pollreply_image, C24_flag_bits, C25_exact, C25_never_clears, C25_partial, C26_exact, C26_portaddr_net, C26_indicator_normal, C26_false, C26_partial, C27_porttype, C29_valid, C33_port_table, C38_decodeString, C39_one_per_ip, C40_routes_to_claimants, C40_dmx_goes_to_claimant, C41_claims_are_routed, C42_removed_takes_all, C43_gc_exact, C46_exact, C46_partial, C47_one_packet_per_universe, C48_pending_is_sent, C49_keep_alive, C50_sequence_increments, C51_partial, C52_send_is_local, C56_partial, C57_false, C58_false, C59_start_invalid, C61_comparison, C68_false, C68_partial, C71_false, C72_nothing_routed, C72_until, C74_false, C74_partial, C78_callbacks, C78_restart, C78_false, C79_bound, C79_partial, C80_false, C83_false, C83_partial, C84_newNode, C84_newController, C84_later, C88_false, C96_false, C96_own_echo, C97_false, C97_handed, C97_mixture, C110_false, C111_partial, C111_false, C111_exact, C112_false, C114_false, C115_count, C115_more, C115_faults, C116_false, C116_forever, C117_false, C117_race, C117_exact, C119_bounded, C121_kept, C121_partial, C122_exact, C122_false, C122_partial, C124_line, C125_stale, C127_false, C130_tight, C130_controller, C137_false, C138_false, C141_false, C142_false, C142_start, C146_traffic, C146_error, C146_calls, C146_never, C147_refines, C148_false, C152_false, C153_false, C153_later, C155_after_tick, C156_false, C157_false, C157_once
* propext, Classical.choice, Quot.sound — C02_dmx_round_trip, C03_dmx_acceptance, C04_unmarshal_never_panics, C05_header_gate, C06_dispatch_fidelity, C07_partial, C07_exact, C08_truncated_rejected, C08_bound_exact, C09_trailing_irrelevant, C10_round_trip, C11_partial, C11_exact, C14_pollreply_acceptance, C15_port_normalised, C16_forward_stable, C17_command_esta, C19_dmx_accepts_nzs, C19_false, C19_partial, C19_exact, C20_dmx_stale_tail, C20_false, C20_partial, C20_exact, C21_partial, C21_exact, C22_exact, C25_false, C28_strings, C30_integer, C31_string, C32_validate, C34_undeclared_style, C34_false, C34_partial, C34_exact, C34_record, C35_partial, C35_false, C35_exact, C36_false, C36_partial, C36_exact, C37_discovered_ports, C37_record, C42_false, C42_partial, C42_exact, C44_responsive_node_stays, C45_silent_node_forgotten, C46_false, C51_exact, C51_false, C53_blackout_first, C54_exact, C54_partial, C54_false, C55_tracked_replies, C57_exact, C57_partial, C58_partial, C58_exact, C60_own, C60_form, C60_exactly_once, C60_arrived, C60_undecodable, C60_registered, C60_no_duplicates, C61_own_ignored, C62_one_per_poll, C62_written, C62_polls_received, C62_node_own, C62_form, C62_wire_queued, C63_only_controllers, C63_no_handler, C64_order, C64_written, C65_silent, C66_blocked, C66_false, C66_partial, C66_terminates, C66_orderly, C66_needed, C66_exact, C67_deadlock, C67_false, C67_partial, C67_needed, C67_exact, C67_waits, C67_caller, C68_exact, C69_isolated, C69_accepted_fixed, C70_capacity, C71_exact, C71_partial, C72_false, C72_partial, C72_exact, C73_linearizable, C73_calls, C73_tables, C73_sequence, C74_exact, C75_panics, C75_exact, C75_registered, C76_nothing_invented, C76_wire, C77_leak, C77_false, C77_partial, C77_first, C77_exact, C78_exact, C78_partial, C79_false, C79_exact, C80_partial, C80_exact, C81_partial, C81_false, C81_exact, C82_keep_alive_interval, C83_panics, C85_forward_bytes, C85_forward_identity, C86_encoding_injective, C87_exact, C87_false, C87_partial, C87_first, C88_partial, C88_call_returns, C88_exact, C89_handled, C89_arrivals, C89_called, C90_taken, C90_written, C91_replies, C91_answered, C92_processed, C92_arrivals, C93_ticked, C94_followed, C95_example_address, C95_announces_zero, C96_partial, C96_replies, C96_exact, C97_partial, C97_exact, C97_same_length, C98_examples_understood, C99_sent_by_a_host, C100_understood, C101_light, C101_own_universe, C102_tables, C103_no_storm, C104_discovered, C104_lossy, C105_light_follows, C106_listens, C107_goes_on, C107_known, C108_exact, C108_emitted, C108_false, C108_partial, C108_first, C109_flood, C109_exact, C109_false, C109_partial, C109_sessions, C110_partial, C110_exact, C112_partial, C112_exact, C113_port, C113_tidy, C114_partial, C114_refines, C114_exact, C116_partial, C116_returns, C116_exact, C117_partial, C117_late, C118_outcome, C120_partial, C120_steady, C120_bounded, C120_false, C120_exact, C121_false, C121_exact, C122_unambiguous, C123_declared, C124_false, C124_partial, C124_started, C124_exact, C125_false, C125_partial, C125_exact, C126_polls, C126_announcements, C126_all_answered, C127_exact, C127_partial, C128_bounds, C128_concurrent, C128_recent, C128_flood, C129_last_event, C129_heals, C130_amplification, C131_partial, C131_short, C131_false, C131_unchecked, C132_tick, C132_traffic, C133_partial, C133_false, C134_independent, C134_without, C135_order, C136_insulated, C137_exact, C137_partial, C138_partial, C138_one, C138_next, C138_rate, C138_refines, C139_no_panic, C140_partial, C140_false, C140_exact, C140_forgotten, C141_exact, C141_partial, C141_sound, C142_exact, C142_writers, C142_readonly, C142_partial, C143_exactly, C143_form, C143_written, C144_collected, C144_forgotten, C145_alike, C145_observed, C145_silent, C146_nodes, C146_starts, C147_lifts, C147_sent, C147_stopped, C147_discarded, C148_exact, C148_partial, C149_polls, C149_frames, C149_window, C150_false, C150_partial, C150_goroutines, C150_nodes, C150_exact, C151_refines, C152_partial, C152_pointers, C152_forgotten, C152_moved, C153_partial, C153_send, C154_false, C154_partial, C154_during, C154_ends, C154_whole, C155_last_call, C155_wire, C156_partial, C156_model, C156_steady, C156_epoch, C156_rate, C157_partial, C157_running, C157_received, C157_arrived

