import Verif.Go.Basic
import Verif.Go.Binary
import Verif.Model.Access
import Verif.Model.Callers
import Verif.Model.Clock
import Verif.Model.Code
import Verif.Model.Conc
import Verif.Model.Config
import Verif.Model.Controller
import Verif.Model.Example
import Verif.Model.Fine
import Verif.Model.Live
import Verif.Model.Log
import Verif.Model.Memory
import Verif.Model.Net
import Verif.Model.Packet
import Verif.Model.Reader
import Verif.Model.Say
import Verif.Model.Setup
import Verif.Model.Slice
import Verif.Model.Tickers
import Verif.Model.Timing
import Verif.Check.Vectors
import Verif.Spec.Accept
import Verif.Spec.Arrival
import Verif.Spec.Balance
import Verif.Spec.Buffers
import Verif.Spec.Bytes
import Verif.Spec.Callers
import Verif.Spec.Clock
import Verif.Spec.Conc
import Verif.Spec.Config
import Verif.Spec.Connection
import Verif.Spec.Constants
import Verif.Spec.Controller
import Verif.Spec.Count
import Verif.Spec.Example
import Verif.Spec.Exclusive
import Verif.Spec.Fair
import Verif.Spec.Fine
import Verif.Spec.Forward
import Verif.Spec.Host
import Verif.Spec.Independent
import Verif.Spec.Kinds
import Verif.Spec.LastCall
import Verif.Spec.Ledger
import Verif.Spec.Length
import Verif.Spec.Memory
import Verif.Spec.Missed
import Verif.Spec.Net
import Verif.Spec.NetFair
import Verif.Spec.Order
import Verif.Spec.Outcome
import Verif.Spec.Overlay
import Verif.Spec.Print
import Verif.Spec.Race
import Verif.Spec.Rate
import Verif.Spec.Reader
import Verif.Spec.Record
import Verif.Spec.Registers
import Verif.Spec.Rename
import Verif.Spec.Route
import Verif.Spec.Say
import Verif.Spec.Sequence
import Verif.Spec.Sessions
import Verif.Spec.Settle
import Verif.Spec.Text
import Verif.Spec.Ticker
import Verif.Spec.Tickers
import Verif.Spec.Traffic
import Verif.Spec.Wire
import Verif.Lemmas.Accept
import Verif.Lemmas.Agree
import Verif.Lemmas.Alike
import Verif.Lemmas.Announce
import Verif.Lemmas.Arrival
import Verif.Lemmas.Binary
import Verif.Lemmas.Buffers
import Verif.Lemmas.Callers
import Verif.Lemmas.Clock
import Verif.Lemmas.Conc
import Verif.Lemmas.ConcAlive
import Verif.Lemmas.ConcChan
import Verif.Lemmas.ConcDrain
import Verif.Lemmas.ConcFrame
import Verif.Lemmas.ConcInv
import Verif.Lemmas.ConcLife
import Verif.Lemmas.ConcLin
import Verif.Lemmas.ConcLive
import Verif.Lemmas.ConcPoll
import Verif.Lemmas.ConcProv
import Verif.Lemmas.ConcRead
import Verif.Lemmas.ConcRun
import Verif.Lemmas.ConcStop
import Verif.Lemmas.ConcStuck
import Verif.Lemmas.ConcTidy
import Verif.Lemmas.ConcWire
import Verif.Lemmas.Config
import Verif.Lemmas.Congr
import Verif.Lemmas.Connection
import Verif.Lemmas.Controller
import Verif.Lemmas.Count
import Verif.Lemmas.CtrlInv
import Verif.Lemmas.Decode
import Verif.Lemmas.Encode
import Verif.Lemmas.Example
import Verif.Lemmas.Fair
import Verif.Lemmas.FairCount
import Verif.Lemmas.FairLoops
import Verif.Lemmas.FairSend
import Verif.Lemmas.FairTick
import Verif.Lemmas.Fine
import Verif.Lemmas.Finite
import Verif.Lemmas.Header
import Verif.Lemmas.Host
import Verif.Lemmas.Independent
import Verif.Lemmas.Insulate
import Verif.Lemmas.LastCall
import Verif.Lemmas.Ledger
import Verif.Lemmas.Live
import Verif.Lemmas.Map
import Verif.Lemmas.Memory
import Verif.Lemmas.MemoryBlind
import Verif.Lemmas.MemoryInv
import Verif.Lemmas.MemorySession
import Verif.Lemmas.Names
import Verif.Lemmas.Net
import Verif.Lemmas.NetFair
import Verif.Lemmas.NetLive
import Verif.Lemmas.NetPath
import Verif.Lemmas.NetSched
import Verif.Lemmas.Neutral
import Verif.Lemmas.Opcode
import Verif.Lemmas.Order
import Verif.Lemmas.Outcome
import Verif.Lemmas.Overlay
import Verif.Lemmas.Pad
import Verif.Lemmas.Print
import Verif.Lemmas.Provenance
import Verif.Lemmas.Rated
import Verif.Lemmas.ReadRaces
import Verif.Lemmas.Reader
import Verif.Lemmas.Rename
import Verif.Lemmas.Say
import Verif.Lemmas.SayNodes
import Verif.Lemmas.Sched
import Verif.Lemmas.Sequence
import Verif.Lemmas.Sessions
import Verif.Lemmas.Settle
import Verif.Lemmas.Sizes
import Verif.Lemmas.Slice
import Verif.Lemmas.Stamp
import Verif.Lemmas.Tick
import Verif.Lemmas.Ticker
import Verif.Lemmas.Tickers
import Verif.Lemmas.TickersCount
import Verif.Lemmas.TickersLift
import Verif.Lemmas.TickersRate
import Verif.Lemmas.TickersSent
import Verif.Lemmas.TickersStop
import Verif.Lemmas.Traffic
import Verif.Lemmas.TrafficFor
import Verif.Lemmas.Unmarshal
import Verif.Props.Amplify
import Verif.Props.Announce
import Verif.Props.Arrival
import Verif.Props.Balance
import Verif.Props.Buffers
import Verif.Props.Callers
import Verif.Props.Clock
import Verif.Props.Config
import Verif.Props.Connection
import Verif.Props.Constants
import Verif.Props.Controller
import Verif.Props.Count
import Verif.Props.Deadlock
import Verif.Props.Decode
import Verif.Props.Delete
import Verif.Props.Dropped
import Verif.Props.Encode
import Verif.Props.Exact
import Verif.Props.ExactCallers
import Verif.Props.ExactData
import Verif.Props.ExactLight
import Verif.Props.ExactOrder
import Verif.Props.Example
import Verif.Props.Exclusive
import Verif.Props.Fair
import Verif.Props.Fine
import Verif.Props.Follow
import Verif.Props.Forward
import Verif.Props.Host
import Verif.Props.Independent
import Verif.Props.Interop
import Verif.Props.LastCall
import Verif.Props.Ledger
import Verif.Props.Length
import Verif.Props.Life
import Verif.Props.Linear
import Verif.Props.Live
import Verif.Props.Log
import Verif.Props.Lonely
import Verif.Props.Memory
import Verif.Props.Missed
import Verif.Props.Net
import Verif.Props.NetFair
import Verif.Props.NetGoes
import Verif.Props.Order
import Verif.Props.Outcome
import Verif.Props.Overlay
import Verif.Props.Pages
import Verif.Props.Print
import Verif.Props.Progress
import Verif.Props.Race
import Verif.Props.Rate
import Verif.Props.RateExact
import Verif.Props.Reader
import Verif.Props.Receive
import Verif.Props.Record
import Verif.Props.Registers
import Verif.Props.Rename
import Verif.Props.Route
import Verif.Props.Say
import Verif.Props.Send
import Verif.Props.Sequence
import Verif.Props.Sessions
import Verif.Props.Settle
import Verif.Props.Setup
import Verif.Props.Sizes
import Verif.Props.Slice
import Verif.Props.Spoof
import Verif.Props.Stream
import Verif.Props.Ticker
import Verif.Props.Tickers
import Verif.Props.Traffic
