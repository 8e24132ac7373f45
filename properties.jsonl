{"id": "C01", "title": "ArtDMX wire image", "statement": "MarshalBinary on any ArtDMXPacket, whatever its Header and Length fields hold, succeeds and returns exactly 530 bytes: 'Art-Net\\0', 00 50, 00 0e, Sequence, Physical, SubUni, Net, 02 00, followed by the 512 Data bytes in order.", "quantifier": "every value of every exported field of ArtDMXPacket (including stale header contents)", "why_tests_cant": "256^512 payloads times all header states; tests check two or three literal frames", "anchors": ["packet/artdmx.go:ArtDMXPacket.MarshalBinary", "packet/artdmx.go:ArtDMXPacket.finish", "packet/header.go:marshalPacket", "packet/header.go:Header.finish"]}
{"id": "C02", "title": "ArtDMX encode/decode round trip", "statement": "Unmarshal(MarshalBinary(p)) succeeds with an *ArtDMXPacket whose Sequence, Physical, SubUni, Net and all 512 Data bytes equal p's, Length is 512 and GetOpCode is OpDMX.", "quantifier": "every ArtDMXPacket value", "why_tests_cant": "quantifies over all payloads and header states", "anchors": ["packet/packet.go:Unmarshal", "packet/artdmx.go:ArtDMXPacket.UnmarshalBinary"]}
{"id": "C03", "title": "ArtDMX acceptance condition is exact", "statement": "A datagram with opcode OpDMX and a valid header is accepted by Unmarshal iff it has at least 18 bytes, its Length field is even, between 2 and 512, and the datagram has at least 18+Length bytes; when accepted, the first Length Data bytes are the wire bytes from offset 18 and all remaining Data bytes are zero.", "quantifier": "every byte string", "why_tests_cant": "unbounded set of datagrams, boundary conditions interact (short, odd, over-long, trailing bytes)", "anchors": ["packet/artdmx.go:ArtDMXPacket.UnmarshalBinary", "packet/packet.go:Unmarshal"]}
{"id": "C04", "title": "Unmarshal never panics", "statement": "Unmarshal returns (a packet or an error) for every byte string; no slice index or slice bound inside header or DMX parsing can go out of range.", "quantifier": "every byte string of every length", "why_tests_cant": "any untested length/field combination received from the network could crash the process", "anchors": ["packet/packet.go:Unmarshal", "packet/header.go:Header.unmarshal", "packet/artdmx.go:ArtDMXPacket.UnmarshalBinary"]}
{"id": "C05", "title": "Header gate", "statement": "Unmarshal succeeds only on datagrams of at least 12 bytes that begin with 'Art-Net\\0' and, unless the opcode is OpPollReply, whose 12th byte is at least 14; every datagram failing one of these gets the corresponding error.", "quantifier": "every byte string", "why_tests_cant": "all malformed datagrams must be rejected, not the sampled ones", "anchors": ["packet/header.go:Header.unmarshal", "packet/header.go:Header.validate", "packet/packet.go:Unmarshal"]}
{"id": "C06", "title": "Opcode dispatch fidelity", "statement": "If Unmarshal succeeds, the dynamic type of the packet is the one belonging to the little-endian opcode in bytes 8-9, and GetOpCode on it returns that opcode in host order; so a callback registered for an opcode can rely on the packet type.", "quantifier": "every byte string accepted by Unmarshal", "why_tests_cant": "every opcode value and every payload", "anchors": ["packet/packet.go:Unmarshal", "packet/header.go:Header.GetOpCode", "packet/artpollreply.go:ArtPollReplyPacket.GetOpCode", "packet/header.go:swapUint16"]}
{"id": "C07", "title": "Opcode classification agrees with code.ValidOp", "statement": "On a datagram that passes the header gate, Unmarshal reports 'invalid OpCode' from dispatch iff code.ValidOp of its opcode is false; a valid opcode without a packet implementation is reported as not implemented; the 12 implemented opcodes reach their decoder.", "quantifier": "all 65536 opcodes and every byte string carrying them", "why_tests_cant": "two independently maintained tables (switch and generated map) must agree on every value", "anchors": ["packet/packet.go:Unmarshal", "packet/code/opcode.go:ValidOp", "packet/code/opcode_string.go:_OpCode_map"]}
{"id": "C08", "title": "Truncated datagrams are rejected at the exact size", "statement": "For each of the 11 fixed-layout packet types, UnmarshalBinary and Unmarshal reject every datagram shorter than the type's wire size (ArtPoll/ArtSync 14, ArtPollReply 239, ArtTimeCode 19, ArtIPProg/ArtIPProgReply 34, ArtAddress 107, ArtTrigger/ArtNzs/ArtDiagData 530, ArtCommand 528) and, on a short read, leave the target struct unmodified.", "quantifier": "every byte string shorter than the size, every packet type", "why_tests_cant": "every truncation point of every content", "anchors": ["packet/header.go:unmarshalPacket", "packet/packet.go:Unmarshal"]}
{"id": "C09", "title": "Trailing bytes are irrelevant", "statement": "If Unmarshal(b) succeeds with packet p then Unmarshal(b ++ t) succeeds with the same p for every suffix t.", "quantifier": "every accepted byte string and every suffix", "why_tests_cant": "pairs of arbitrary byte strings", "anchors": ["packet/packet.go:Unmarshal", "packet/artdmx.go:ArtDMXPacket.UnmarshalBinary", "packet/header.go:unmarshalPacket"]}
{"id": "C10", "title": "Round trip of the fixed-layout packets", "statement": "For ArtPoll, ArtPollReply, ArtDiagData, ArtCommand, ArtNzs, ArtSync, ArtAddress, ArtTimeCode, ArtTrigger, ArtIPProg, ArtIPProgReply: if OpCode holds the type's opcode (and, for ArtPollReply, Port is 6454 and Style is valid) before MarshalBinary, then Unmarshal of the bytes succeeds and returns a packet of the same type with every named field equal (ID and Version set to the protocol constants, ArtCommand's ESTA code set to ff ff).", "quantifier": "every field valuation of each of the 11 types", "why_tests_cant": "unbounded field contents", "anchors": ["packet/header.go:marshalPacket", "packet/header.go:unmarshalPacket", "packet/packet.go:Unmarshal"]}
{"id": "C11", "title": "A packet from a New*Packet constructor can be sent", "statement": "The bytes produced by MarshalBinary on a packet built with its constructor (documented as having 'the correct OpCode') and filled with payload fields are accepted by Unmarshal as that packet type.", "quantifier": "every packet type, every payload", "why_tests_cant": "must hold for all payloads; no test marshals nine of the twelve types", "anchors": ["packet/artsync.go:NewArtSyncPacket", "packet/artsync.go:ArtSyncPacket.finish", "packet/artpoll.go:ArtPollPacket.finish", "packet/artnzs.go:NewArtNzsPacket", "packet/artaddress.go:NewArtAddressPacket"]}
{"id": "C12", "title": "MarshalBinary is repeatable", "statement": "Marshalling the same packet object several times yields the same bytes each time.", "quantifier": "every packet type, every field valuation, every number of repetitions", "why_tests_cant": "sequences of calls on a mutated object", "anchors": ["packet/header.go:marshalPacket", "packet/header.go:Header.finish", "packet/artpollreply.go:ArtPollReplyPacket.finish"]}
{"id": "C13", "title": "MarshalBinary is total and fixed-size", "statement": "MarshalBinary never returns an error and always returns exactly the wire size of its type; the result never depends on ID, Version or (ArtDMX) Length fields of the object.", "quantifier": "every field valuation of the 12 packet types", "why_tests_cant": "all field values", "anchors": ["packet/header.go:marshalPacket"]}
{"id": "C14", "title": "ArtPollReply acceptance condition is exact", "statement": "A datagram with ID 'Art-Net\\0' and opcode OpPollReply is accepted iff it has at least 239 bytes, the port bytes 14-15 are 36 19 or 19 36, and the style byte at offset 200 is below 7; the bytes at offsets 10-13 (IP address) are unconstrained.", "quantifier": "every byte string", "why_tests_cant": "every combination of lengths, ports and styles", "anchors": ["packet/artpollreply.go:ArtPollReplyPacket.validate", "packet/header.go:Header.validate"]}
{"id": "C15", "title": "ArtPollReply port is normalised", "statement": "Every ArtPollReply accepted by Unmarshal has Port = 6454, whichever byte order the sender used, and two datagrams that differ only in the byte order of the port decode to the same packet.", "quantifier": "every accepted datagram", "why_tests_cant": "all payloads, two encodings", "anchors": ["packet/artpollreply.go:ArtPollReplyPacket.validate"]}
{"id": "C16", "title": "Forwarding a decoded packet is stable", "statement": "If Unmarshal(b) succeeds with p, then MarshalBinary(p) is accepted by Unmarshal and yields a packet equal to p except that the version becomes 14 and an ArtDMX Length becomes 512; a second forward yields identical bytes.", "quantifier": "every accepted byte string of every packet type", "why_tests_cant": "all inputs of all types through three codec passes", "anchors": ["packet/packet.go:Unmarshal", "packet/header.go:marshalPacket"]}
{"id": "C17", "title": "ArtCommand manufacturer code", "statement": "Every ArtCommand sent carries ESTA code ff ff, and an ArtCommand datagram of sufficient size is accepted iff its ESTA bytes are ff ff.", "quantifier": "every ArtCommand field valuation and every datagram", "why_tests_cant": "all payloads", "anchors": ["packet/artcommand.go:ArtCommandPacket.validate", "packet/artcommand.go:ArtCommandPacket.finish"]}
{"id": "C18", "title": "Padding is zero on the wire and ignored on receipt", "statement": "Filler/spare byte positions of ArtDiagData, ArtSync, ArtTimeCode, ArtTrigger, ArtIPProg, ArtIPProgReply and ArtPollReply are transmitted as zero, and two datagrams differing only at those positions decode to the same result.", "quantifier": "every packet valuation; every pair of datagrams differing only in padding", "why_tests_cant": "pairs of arbitrary datagrams", "anchors": ["packet/artipprog.go", "packet/artipprogreply.go", "packet/artdiagdata.go", "packet/arttimecode.go", "packet/arttrigger.go", "packet/artsync.go", "packet/artpollreply.go"]}
{"id": "C19", "title": "UnmarshalBinary rejects datagrams of another type", "statement": "Calling UnmarshalBinary of packet type T on a datagram that is not a T (wrong opcode or wrong ID) returns an error.", "quantifier": "every packet type, every byte string", "why_tests_cant": "all foreign datagrams", "anchors": ["packet/artdmx.go:ArtDMXPacket.UnmarshalBinary", "packet/artpollreply.go:ArtPollReplyPacket.validate", "packet/artpoll.go:ArtPollPacket.validate"]}
{"id": "C20", "title": "UnmarshalBinary does not depend on the previous contents of the object", "statement": "On success the decoded object is a function of the datagram alone, so packet objects can be reused.", "quantifier": "every pair of initial objects and every datagram", "why_tests_cant": "pairs of arbitrary prior states", "anchors": ["packet/artdmx.go:ArtDMXPacket.UnmarshalBinary", "packet/header.go:unmarshalPacket"]}
{"id": "C21", "title": "Protocol version compatibility", "statement": "No datagram (other than ArtPollReply) with a protocol version below 14 is accepted, and a version of 14 or more is never a reason for rejection.", "quantifier": "all 65536 version values on every datagram", "why_tests_cant": "all versions, all payloads", "anchors": ["packet/header.go:Header.validate", "version/version.go:Bytes"]}
{"id": "C22", "title": "A failed Unmarshal yields no packet", "statement": "When Unmarshal returns an error the returned packet is nil.", "quantifier": "every rejected byte string", "why_tests_cant": "all rejected inputs", "anchors": ["packet/packet.go:Unmarshal"]}
{"id": "C23", "title": "Wire layout of every packet type", "statement": "For every packet type MarshalBinary emits the Art-Net layout: the magic, the opcode low byte first, protocol version 0,14 (not for ArtPollReply), then the fields in declared order with 16-bit integers high byte first (ArtPollReply.Port low byte first) and no gaps.", "quantifier": "every field valuation with OpCode set (Port host-order)", "why_tests_cant": "all field values at all offsets", "anchors": ["packet/header.go:marshalPacket", "packet/artpollreply.go:ArtPollReplyPacket"]}
{"id": "C24", "title": "Flag setters set exactly their bit", "statement": "For every boolean flag of TalkToMe, Status1, Status2, PortType, GoodInput, GoodOutput, SwMacro and SwRemote: the getter reads exactly the documented bit, WithX(true) makes X() true and changes no other bit of the register.", "quantifier": "all 256 register values, all 45 flags", "why_tests_cant": "exhaustive cross product of flags and registers, interference between flags", "anchors": ["packet/code/talktome.go", "packet/code/status1.go", "packet/code/status2.go", "packet/code/porttype.go", "packet/code/goodinput.go", "packet/code/goodoutput.go", "packet/code/swmacro.go", "packet/code/swremote.go"]}
{"id": "C25", "title": "Flag setters honour their argument", "statement": "WithX(b).X() == b for every flag and both values of b.", "quantifier": "all register values, flags and both booleans", "why_tests_cant": "must hold on registers where the flag is already set", "anchors": ["packet/code/talktome.go:TalkToMe.WithReplyOnChange", "packet/code/status2.go", "packet/code/goodoutput.go"]}
{"id": "C26", "title": "Status1 multi-bit fields read back", "statement": "PortAddr() returns what WithPortAddr set and Indicator() returns what WithIndicator set, on a register where the field was clear.", "quantifier": "all documented values and all registers with the field clear", "why_tests_cant": "whole register space", "anchors": ["packet/code/status1.go:Status1.PortAddr", "packet/code/status1.go:Status1.WithPortAddr", "packet/code/status1.go:Status1.Indicator", "packet/code/status1.go:Status1.WithIndicator"]}
{"id": "C27", "title": "PortType protocol reads back and is independent of direction flags", "statement": "On a PortType whose protocol bits are clear, WithType(v).Type() == v for each of the six documented protocols; WithInput/WithOutput never change Type() and WithType never changes Input()/Output().", "quantifier": "all registers, all strings", "why_tests_cant": "whole register space and every string argument", "anchors": ["packet/code/porttype.go"]}
{"id": "C28", "title": "String methods are total and name the constant", "statement": "String() of OpCode, StyleCode, NodeReportCode and PriorityCode never slices out of range, returns the constant's name on every declared constant, and distinct code values never share a string.", "quantifier": "all 65536 opcodes, all 256 byte codes", "why_tests_cant": "generated index tables must be consistent at every entry", "anchors": ["packet/code/opcode_string.go", "packet/code/stylecode.go", "packet/code/nodereportcode_string.go", "packet/code/prioritycode_string.go"]}
{"id": "C29", "title": "ValidOp and ValidStyle accept exactly the declared constants", "statement": "ValidOp(o) iff o is one of the 35 declared OpCode constants; ValidStyle(s) iff s is one of the 7 declared StyleCode constants.", "quantifier": "all opcode and style values", "why_tests_cant": "complete value space", "anchors": ["packet/code/opcode.go:ValidOp", "packet/code/stylecode.go:ValidStyle"]}
{"id": "C30", "title": "Address.Integer is a faithful 16-bit number", "statement": "Address.Integer() = 256*Net + SubUni, lies in 0..65535, distinct addresses have distinct integers and every such number is some address's integer.", "quantifier": "all addresses", "why_tests_cant": "value space and injectivity over pairs", "anchors": ["config.go:Address.Integer"]}
{"id": "C31", "title": "Address.String is unambiguous", "statement": "Distinct addresses have distinct String() representations, and the three decimal components are Net, SubUni/16 and SubUni mod 16.", "quantifier": "all pairs of addresses", "why_tests_cant": "pairs of addresses", "anchors": ["config.go:Address.String"]}
{"id": "C32", "title": "Configuration validation is exact", "statement": "Node.Start reports a configuration error iff there are more than 4 input ports, more than 4 output ports, or an index below both lengths where input and output protocol differ; validation never panics.", "quantifier": "every port configuration of any length", "why_tests_cant": "unbounded port lists", "anchors": ["config.go:NodeConfig.validate", "node.go:Node.Start"]}
{"id": "C33", "title": "Announced port table", "statement": "For a valid configuration the announced ArtPollReply has NumPorts = max(#inputs,#outputs), port i is flagged input iff i < #inputs and output iff i < #outputs, its protocol equals the configured one whenever that is a documented protocol, and unused entries are zero.", "quantifier": "every valid configuration", "why_tests_cant": "all port lists and register contents", "anchors": ["config.go:NodeConfig.PortTypes", "config.go:NodeConfig.NumberOfPorts", "config.go:ArtPollReplyFromConfig"]}
{"id": "C34", "title": "Announce/discover identity", "statement": "A controller that receives the marshalled ArtPollReply of a node reconstructs the node's OEM, version, bios version, style, bind index, status registers, base address, IPv4 address, bind IP, MAC, and its manufacturer, name and description when these are NUL-free ASCII fitting the field; and it sees as many input and output ports as configured.", "quantifier": "every valid configuration", "why_tests_cant": "end-to-end composition of config, codec and discovery over all configurations", "anchors": ["config.go:ArtPollReplyFromConfig", "config.go:ConfigFromArtPollReply", "packet/artpollreply.go", "packet/packet.go:Unmarshal"]}
{"id": "C35", "title": "Announce/discover preserves port addresses and status", "statement": "The universe address and status of every configured port survive announce and discover.", "quantifier": "every valid configuration", "why_tests_cant": "all configurations", "anchors": ["config.go:ArtPollReplyFromConfig", "config.go:ConfigFromArtPollReply"]}
{"id": "C36", "title": "Discovered universe address follows the Art-Net Port-Address", "statement": "For a reply with NetSwitch n, SubSwitch s (bits 7-4 in the low nibble) and SwOut[i] / SwIn[i] = u, the discovered port address is Net = n, SubUni = 16*s + u.", "quantifier": "every ArtPollReply", "why_tests_cant": "all switch values", "anchors": ["config.go:ConfigFromArtPollReply", "packet/artpollreply.go:ArtPollReplyPacket.SubSwitch"]}
{"id": "C37", "title": "Discovered ports are exactly the advertised ones", "statement": "ConfigFromArtPollReply never panics, yields at most 4 input and 4 output ports however large NumPorts is, in ascending index order, one output (input) port for each index i < min(NumPorts,4) whose PortTypes[i] has the output (input) flag, carrying that index's address, type and status.", "quantifier": "every ArtPollReplyPacket", "why_tests_cant": "all 65536 NumPorts values and all register contents", "anchors": ["config.go:ConfigFromArtPollReply"]}
{"id": "C38", "title": "Names decode up to the first NUL", "statement": "The discovered Name/Description/Manufacturer is the field content before its first zero byte; when that prefix is ASCII it is reproduced byte for byte, and it never contains a NUL.", "quantifier": "every field content", "why_tests_cant": "all byte arrays", "anchors": ["config.go:decodeString", "config.go:ConfigFromArtPollReply"]}
{"id": "C39", "title": "One controlled node per IP", "statement": "At all times Controller.Nodes contains at most one node for each IP address.", "quantifier": "every history of poll replies, expiries, DMX sends, ticks and restarts", "why_tests_cant": "unbounded histories", "anchors": ["controller.go:Controller.updateNode", "controller.go:Controller.gcNode"]}
{"id": "C40", "title": "DMX only goes to a known node that claims the universe", "statement": "At all times, every entry of OutputAddress (InputAddress) refers to a node currently in Nodes whose latest configuration lists that address as an output (input) port; hence every ArtDMX packet produced is sent to that node's IP at port 6454 and carries that address.", "quantifier": "every history", "why_tests_cant": "unbounded histories, including colliding nodes, reconfiguration and expiry", "anchors": ["controller.go:Controller.updateNode", "controller.go:Controller.gcNode", "controller.go:Controller.dmxUpdateLoop"]}
{"id": "C41", "title": "Every claimed universe is routed when addresses do not collide", "statement": "If no two simultaneously known nodes ever claimed the same output address (the documented assumption), every output address of every known node is routed to that node.", "quantifier": "every collision-free history since Start", "why_tests_cant": "unbounded histories", "anchors": ["controller.go:Controller.updateNode", "controller.go:Controller.gcNode"]}
{"id": "C42", "title": "Expiry or update of one node leaves other nodes routed", "statement": "Removing or updating a node does not remove the routing of a universe that another live node claims.", "quantifier": "every history", "why_tests_cant": "unbounded histories with collisions", "anchors": ["controller.go:Controller.gcNode", "controller.go:Controller.updateNode"]}
{"id": "C43", "title": "Garbage collection removes exactly the stale nodes", "statement": "One gc pass removes every node not heard from for more than 7s when the pass starts, keeps (in order) every node heard from within 7s of every clock reading of the pass, terminates, and removes the addresses of the removed nodes from the routing tables.", "quantifier": "every state and every monotone clock", "why_tests_cant": "restart-loop over a list mutated during iteration, for all list contents", "anchors": ["controller.go:Controller.gcNode"]}
{"id": "C44", "title": "A responsive node is never dropped", "statement": "A node whose accepted poll replies are never more than 7s apart (and last one at most 7s ago) stays in Nodes through every gc pass.", "quantifier": "every history satisfying the timing condition", "why_tests_cant": "unbounded timed histories", "anchors": ["controller.go:Controller.gcNode", "controller.go:Controller.updateNode"]}
{"id": "C45", "title": "A silent node is forgotten and receives nothing more", "statement": "Once 7s have passed since a node's last accepted reply, the next gc pass removes it, and until a new reply arrives no ArtDMX packet is sent to its address.", "quantifier": "every history", "why_tests_cant": "unbounded histories", "anchors": ["controller.go:Controller.gcNode", "controller.go:Controller.dmxUpdateLoop"]}
{"id": "C46", "title": "Last write wins", "statement": "After SendDMXToAddress(d, a) on a routed universe, every ArtDMX packet later sent by that node entry for a carries exactly d until the next SendDMXToAddress on a, whatever other operations happen in between.", "quantifier": "every history and every interleaving of other operations", "why_tests_cant": "unbounded interleavings", "anchors": ["controller.go:Controller.SendDMXToAddress", "controller.go:ControlledNode.setDMXBuffer", "controller.go:ControlledNode.dmxUpdate"]}
{"id": "C47", "title": "At most one packet per universe per tick", "statement": "One update tick emits at most one ArtDMX packet for each routed universe and none for an unrouted address, whatever the map iteration order.", "quantifier": "every state, clock and iteration order", "why_tests_cant": "Go map iteration order is random", "anchors": ["controller.go:Controller.dmxUpdateLoop"]}
{"id": "C48", "title": "Fresh data is sent at the next tick", "statement": "If a routed universe has pending data and its last transmission is older than maxFPS nanoseconds, the next tick sends a packet with that data.", "quantifier": "every state, clock and iteration order", "why_tests_cant": "all states and schedules", "anchors": ["controller.go:Controller.dmxUpdateLoop"]}
{"id": "C49", "title": "Keep-alive", "statement": "A tick sends a packet for every routed universe last transmitted more than 250ms ago, and for a universe without pending data only then.", "quantifier": "every state, clock and iteration order", "why_tests_cant": "all states and schedules", "anchors": ["controller.go:Controller.dmxUpdateLoop"]}
{"id": "C50", "title": "Sequence numbers advance by one", "statement": "The sequence numbers of consecutive ArtDMX packets sent to one node entry increase by exactly 1 modulo 256, starting at 1.", "quantifier": "every history", "why_tests_cant": "unbounded histories and map orders", "anchors": ["controller.go:ControlledNode.dmxUpdate"]}
{"id": "C51", "title": "Sequence numbers stay in 1..255", "statement": "As the ArtDMX documentation requires, the sequence number used is never 0 (which would disable resequencing).", "quantifier": "every history", "why_tests_cant": "only fails after 256 packets to one node", "anchors": ["controller.go:ControlledNode.dmxUpdate", "packet/artdmx.go:ArtDMXPacket.Sequence"]}
{"id": "C52", "title": "SendDMXToAddress is local", "statement": "SendDMXToAddress on an unrouted address changes nothing; on a routed one it changes only that universe's buffer: routing, node list and every other universe's data are unchanged.", "quantifier": "every state, payload and address", "why_tests_cant": "all states", "anchors": ["controller.go:Controller.SendDMXToAddress"]}
{"id": "C53", "title": "A newly discovered node is blacked out first", "statement": "When a node becomes known, the first tick sends, for each of its routed output universes, a packet; it carries all zeros unless SendDMXToAddress was called in between.", "quantifier": "every state and every node configuration", "why_tests_cant": "all configurations and iteration orders", "anchors": ["controller.go:Controller.updateNode", "controller.go:Controller.dmxUpdateLoop"]}
{"id": "C54", "title": "DMX to a routed universe is never dropped", "statement": "SendDMXToAddress(d, a) on a universe present in OutputAddress stores d for transmission.", "quantifier": "every history", "why_tests_cant": "needs the interleaving reconfigure / send / tick", "anchors": ["controller.go:Controller.SendDMXToAddress", "controller.go:Controller.updateNode"]}
{"id": "C55", "title": "Only nodes and output-capable controllers are tracked", "statement": "A poll reply changes the controller's state only if its style is StNode, or StController with at least one discovered output port.", "quantifier": "every poll reply and state", "why_tests_cant": "all replies", "anchors": ["controller.go:Controller.pollLoop"]}
{"id": "C56", "title": "Any frame rate can be configured", "statement": "Starting the update loop with the configured MaxFPS does not panic.", "quantifier": "every int passed to MaxFPS", "why_tests_cant": "whole integer range", "anchors": ["controller.go:Controller.dmxUpdateLoop", "options.go:MaxFPS"]}
{"id": "C57", "title": "Callbacks can change only while the node is stopped", "statement": "RegisterCallback/DeregisterCallback take effect iff the node is not running; the last effective call for an opcode wins and other opcodes are unaffected.", "quantifier": "every sequence of register, deregister, start and stop calls", "why_tests_cant": "unbounded call sequences", "anchors": ["node.go:Node.RegisterCallback", "node.go:Node.DeregisterCallback", "node.go:Node.Start", "node.go:Node.Stop"]}
{"id": "C58", "title": "Stop is safe", "statement": "Calling Stop never panics.", "quantifier": "every sequence of Start and Stop calls", "why_tests_cant": "call sequences such as Stop twice or Stop before Start", "anchors": ["node.go:Node.Stop", "controller.go:Controller.Stop"]}
{"id": "C59", "title": "Start rejects an invalid configuration without side effects", "statement": "If validation fails, Start returns the error and leaves the node exactly as before (still stopped, no goroutine, no channel).", "quantifier": "every node state", "why_tests_cant": "all states", "anchors": ["node.go:Node.Start"]}
{"id": "C60", "title": "A received packet reaches its callback exactly once", "statement": "At every moment, the user-callback invocations so far are, opcode by opcode, a sub-multiset of the decodable datagrams received from other hosts; each such datagram is either still queued, being handled, delivered once to the callback registered for its opcode, or dropped because none is registered.", "quantifier": "every schedule of the node's goroutines and every stream of datagrams", "why_tests_cant": "all interleavings", "anchors": ["node.go:Node.recvLoop", "node.go:Node.handlePacket"]}
{"id": "C61", "title": "A node's own datagrams are ignored", "statement": "A datagram whose source address equals the node's IP (in 4- or 16-byte form) never reaches any callback.", "quantifier": "every schedule and every datagram", "why_tests_cant": "all interleavings and address encodings", "anchors": ["node.go:Node.recvLoop"]}
{"id": "C62", "title": "Poll replies are broadcast one per poll", "statement": "The number of ArtPollReply datagrams queued or written never exceeds the number of ArtPoll requests received (plus, for a controller, its own), each goes to the node's broadcast address and each is the marshalled reply for the configuration at Start.", "quantifier": "every schedule", "why_tests_cant": "all interleavings", "anchors": ["node.go:Node.pollReplyLoop", "node.go:Node.handlePacketPoll"]}
{"id": "C63", "title": "Only controllers process poll replies", "statement": "A node whose style is not StController never forwards an ArtPollReply to its discovery channel.", "quantifier": "every schedule", "why_tests_cant": "all interleavings", "anchors": ["node.go:Node.handlePacketPollReply"]}
{"id": "C64", "title": "Sent datagrams keep their order", "statement": "At every moment the sequence of payloads taken for transmission followed by those still queued equals the sequence of payloads enqueued: nothing is lost, duplicated or reordered inside the send queue.", "quantifier": "every schedule", "why_tests_cant": "all interleavings", "anchors": ["node.go:Node.sendLoop"]}
{"id": "C65", "title": "Nothing is transmitted after Stop", "statement": "After Stop has returned no further datagram is written to the network (until the next Start).", "quantifier": "every schedule", "why_tests_cant": "race between the shutdown check and the write", "anchors": ["node.go:Node.Stop", "node.go:Node.sendLoop"]}
{"id": "C66", "title": "Goroutines terminate after Stop", "statement": "After Stop, every goroutine of the node can run to termination.", "quantifier": "every schedule", "why_tests_cant": "requires the queues to be full at the moment of Stop", "anchors": ["node.go:Node.pollReplyLoop", "node.go:Node.recvLoop", "node.go:Node.handlePacketPoll"]}
{"id": "C67", "title": "SendDMXToAddress never blocks forever", "statement": "From every reachable state the controller can always get back to a state where its lock is free, so a caller of SendDMXToAddress eventually proceeds.", "quantifier": "every schedule of poll loop, update loop, send loop, poll-reply loop and callers, before and after Stop", "why_tests_cant": "deadlock needs a particular interleaving with full queues", "anchors": ["controller.go:Controller.dmxUpdateLoop", "controller.go:Controller.Stop", "node.go:Node.sendLoop"]}
{"id": "C68", "title": "A read error does not crash the process", "statement": "An error returned by the UDP read while the node is running is logged and the node keeps running; a read error caused by Stop ends the reader quietly.", "quantifier": "every schedule and read outcome", "why_tests_cant": "OS read errors cannot be produced at will in a unit test", "anchors": ["node.go:Node.recvLoop"]}
{"id": "C69", "title": "Received payloads are isolated", "statement": "The bytes handed to the parser are the first min(n,4096) bytes of the datagram as received, unaffected by datagrams received later into the shared read buffer.", "quantifier": "every stream of datagrams and schedule", "why_tests_cant": "buffer reuse interacts with queueing", "anchors": ["node.go:Node.recvLoop"]}
{"id": "C70", "title": "Queues stay within their capacity", "statement": "sendCh, recvCh, pollCh and pollReplyCh never hold more than 10 elements.", "quantifier": "every schedule", "why_tests_cant": "all interleavings", "anchors": ["node.go:Node.Start"]}
{"id": "C71", "title": "Broadcast address option covers everything the controller broadcasts", "statement": "With the BroadcastAddr option, every broadcast of the controller (its ArtPoll and its own ArtPollReply) goes to the configured address.", "quantifier": "every address and schedule", "why_tests_cant": "all addresses", "anchors": ["options.go:BroadcastAddr", "controller.go:NewController", "node.go:Node.pollReplyLoop"]}
{"id": "C72", "title": "Restarting a controller restores routing", "statement": "After Stop and Start, universes of nodes still listed in Nodes are routed.", "quantifier": "every history with restarts", "why_tests_cant": "unbounded histories", "anchors": ["controller.go:Controller.Start"]}
{"id": "C73", "title": "The controller is linearizable", "statement": "Under every schedule of its goroutines and callers the controller's state and the DMX packets it emits are those of the sequential controller executing the critical sections (updateNode, gcNode, tick, SendDMXToAddress) in some order, namely the order in which the lock was taken; so every property of sequential histories carries over.", "quantifier": "every schedule of poll loop, update loop and callers of SendDMXToAddress", "why_tests_cant": "all interleavings", "anchors": ["controller.go:Controller.pollLoop", "controller.go:Controller.dmxUpdateLoop", "controller.go:Controller.SendDMXToAddress"]}
{"id": "C74", "title": "A successful restart is reported as success", "statement": "If Start can listen and the frame rate is valid, it returns nil, whatever happened before.", "quantifier": "every history of starts, stops and failures to listen", "why_tests_cant": "needs a failed listen followed by a successful one", "anchors": ["controller.go:Controller.Start", "node.go:Node.Start"]}
{"id": "C75", "title": "No input panics the process", "statement": "The process panics only on misuse of Stop, on a frame rate outside 1..10^9, on a read error while running or on a packet for which nil was registered as call-back; no datagram, poll reply or call of SendDMXToAddress can cause a panic.", "quantifier": "every reachable state and every action", "why_tests_cant": "all schedules, all datagrams", "anchors": ["node.go:Node.recvLoop", "node.go:Node.Stop", "controller.go:Controller.Stop", "controller.go:Controller.dmxUpdateLoop"]}
{"id": "C76", "title": "Nothing on the wire is invented", "statement": "Every datagram written is the node's announcement to its broadcast address, the controller's ArtPoll, or an ArtDMX to port 6454 of an address in an ArtPollReply received from another host, for a universe announced in that reply, carrying zeros or the data of a SendDMXToAddress call for that universe.", "quantifier": "every execution: schedules, datagrams, calls, restarts", "why_tests_cant": "end-to-end over all schedules and inputs", "anchors": ["node.go:Node.sendLoop", "controller.go:Controller.dmxUpdateLoop", "controller.go:Controller.updateNode", "controller.go:Controller.SendDMXToAddress"]}
{"id": "C77", "title": "No deadlock while running", "statement": "While a node or controller runs (between the return of Start and the call of Stop, every Start being made when the goroutines of the session before have returned), no goroutine is stuck for ever: one that is not waiting in a select or in a read can go on, now or after other goroutines have taken some steps.", "quantifier": "every reachable state of every such session, every goroutine, every schedule before", "why_tests_cant": "a blocking cycle through full channels and the lock depends on the schedule and the input", "anchors": ["node.go:Node.sendLoop", "node.go:Node.recvLoop", "node.go:Node.handlePacketPollReply", "controller.go:Controller.pollLoop", "controller.go:Controller.dmxUpdateLoop", "controller.go:Controller.SendDMXToAddress"]}
{"id": "C78", "title": "No data race with life cycle calls", "statement": "Start, RegisterCallback and DeregisterCallback never assign a shared field (the map of call-backs, the connection, the channels, the controller's tables) at a moment at which a goroutine is about to use it.", "quantifier": "every reachable state, every life cycle call, every goroutine", "why_tests_cant": "races show only in particular schedules", "anchors": ["node.go:Node.RegisterCallback", "node.go:Node.DeregisterCallback", "node.go:Node.handlePacket", "node.go:Node.Start", "controller.go:Controller.Start"]}
{"id": "C79", "title": "Frame rate limit", "statement": "If ticks are at least the period of the ticker apart, the controller sends at most maxFPS ArtDMX datagrams for a universe within one second.", "quantifier": "every frame rate, every history of replies, calls, ticks and collections, every universe and second", "why_tests_cant": "depends on integer rounding for each rate and on all histories", "anchors": ["controller.go:Controller.dmxUpdateLoop"]}
{"id": "C80", "title": "The library understands what it sends", "statement": "Every datagram that a node or controller writes is decoded without error by a receiver that uses the library, as the announcement of its configuration, as the ArtPoll of a controller or as ArtDMX with 512 channels that are zero or from a call of SendDMXToAddress for that universe.", "quantifier": "every execution of the concurrent model, every datagram written", "why_tests_cant": "end-to-end over all configurations, schedules and inputs", "anchors": ["node.go:Node.sendLoop", "controller.go:Controller.dmxUpdateLoop", "packet/packet.go:Unmarshal", "packet/artpollreply.go:ArtPollReplyPacket.validate"]}
{"id": "C81", "title": "From announcement to light", "statement": "A valid node that announces itself to a controller in any state, and for one of whose output ports SendDMXToAddress is called after the next tick, is sent an ArtDMX datagram with that data and that universe at the following tick.", "quantifier": "every valid configuration, every controller history before, every port and data", "why_tests_cant": "end-to-end composition of encoder, decoder, configuration mapping, routing and the update loop for all inputs", "anchors": ["node.go:Node.pollReplyLoop", "config.go:ArtPollReplyFromConfig", "config.go:ConfigFromArtPollReply", "controller.go:Controller.updateNode", "controller.go:Controller.SendDMXToAddress", "controller.go:Controller.dmxUpdateLoop"]}
{"id": "C82", "title": "Keep-alive interval", "statement": "If all ticks so far were at or before t1, and a tick more than 250 ms after t1 finds a universe routed to a node, then a datagram for that universe has been sent after t1, at that tick or at one in between.", "quantifier": "every history before and in between, every universe and node", "why_tests_cant": "all interleavings of replies, calls, ticks and collections", "anchors": ["controller.go:Controller.dmxUpdateLoop"]}
{"id": "C83", "title": "deleteNode removes a node", "statement": "deleteNode removes the node with the given IP address and nothing else from the list of nodes, and returns an error if and only if there is none.", "quantifier": "every reachable state of the controller, every IP address", "why_tests_cant": "no code calls it; the outcome depends on the position in a list of any length", "anchors": ["controller.go:Controller.deleteNode"]}
{"id": "C84", "title": "Constructors and options", "statement": "NewNode and NewController yield the given name, style and IP address, no ports, local address IP:6454, exactly the built-in call-backs, and for listen address, broadcast address and frame rate the value of the last option that sets it, or the documented default; no option changes anything else.", "quantifier": "every name, style, IP address and list of options", "why_tests_cant": "lists of options of any length and order", "anchors": ["node.go:NewNode", "controller.go:NewController", "options.go"]}
{"id": "C85", "title": "Forwarding is byte-exact", "statement": "Unmarshal followed by MarshalBinary reproduces every byte of the datagram except filler and spare bytes (zero), the version (14), the port of an ArtPollReply (0x1936, low byte first), and the length and missing channels of an ArtDMX (512, zero).", "quantifier": "every accepted datagram of every type", "why_tests_cant": "all bytes of all datagrams", "anchors": ["packet/packet.go:Unmarshal", "packet/header.go:marshalPacket", "packet/header.go:unmarshalPacket", "packet/artdmx.go:ArtDMXPacket.MarshalBinary"]}
{"id": "C86", "title": "Different packets are sent as different bytes", "statement": "If MarshalBinary of two sendable packets (of any types) gives the same bytes, they are of the same type and agree in all fields that the encoder does not set itself.", "quantifier": "every pair of sendable packets", "why_tests_cant": "pairs of arbitrary packets", "anchors": ["packet/header.go:marshalPacket"]}
{"id": "C87", "title": "Datagrams leave in the order in which they were queued", "statement": "The datagrams that a node or controller has written to its connections are, in their order, among the payloads put into its send queues: none is overtaken by a later one, across all sessions.", "quantifier": "every schedule, every sequence of Start and Stop calls", "why_tests_cant": "two send loops only coexist when Start follows Stop before the old loop has noticed, which depends on the schedule", "anchors": ["node.go:Node.sendLoop", "node.go:Node.Start", "node.go:Node.Stop"]}
{"id": "C88", "title": "Nobody waits for ever", "statement": "Within a session, if the scheduler, the wait queues of channels and locks, and select are fair, every goroutine that is not idle in a select, in a read or returned eventually does its next step; in particular every call of SendDMXToAddress returns.", "quantifier": "every infinite fair execution, every configuration, every history before it", "why_tests_cant": "a statement about infinite executions: a test stops after finite time and sees one schedule", "anchors": ["node.go:Node.sendLoop", "node.go:Node.recvLoop", "node.go:Node.pollReplyLoop", "controller.go:Controller.pollLoop", "controller.go:Controller.dmxUpdateLoop", "controller.go:Controller.SendDMXToAddress"]}
{"id": "C89", "title": "Every received packet is handled in the end", "statement": "Within a session, under a fair scheduler, every decodable datagram that arrives from another host is eventually handed to the call-back registered for its opcode (or dropped if there is none), as often as it arrived.", "quantifier": "every infinite fair execution, every sequence of datagrams, every set of registered call-backs", "why_tests_cant": "a statement about infinite executions with any number of datagrams under way", "anchors": ["node.go:Node.recvLoop", "node.go:Node.handlePacket", "node.go:Node.RegisterCallback"]}
{"id": "C90", "title": "Every queued datagram is written in the end", "statement": "Within a session, under a fair scheduler, sendLoop takes everything that is put into sendCh, in order; if no write fails, everything queued is written to the connection, in order and with nothing in between.", "quantifier": "every infinite fair execution", "why_tests_cant": "a statement about infinite executions with concurrent producers", "anchors": ["node.go:Node.sendLoop"]}
{"id": "C91", "title": "Every poll is answered in the end", "statement": "Within a session, under a fair scheduler and without write errors, a node whose ArtPoll call-back is the built-in one writes at least as many ArtPollReply datagrams as ArtPoll packets arrive from other hosts.", "quantifier": "every infinite fair execution, every arrival pattern", "why_tests_cant": "a statement about infinite executions through four goroutines and three queues", "anchors": ["node.go:Node.handlePacketPoll", "node.go:Node.pollReplyLoop", "node.go:Node.sendLoop"]}
{"id": "C92", "title": "Every announcement reaches the controller's tables in the end", "statement": "Within a session, under a fair scheduler, pollLoop of a Controller processes every ArtPollReply that arrives from another host, as often as it arrived.", "quantifier": "every infinite fair execution, every arrival pattern", "why_tests_cant": "a statement about infinite executions in which pollLoop also serves its tickers and the lock", "anchors": ["node.go:Node.handlePacketPollReply", "controller.go:Controller.pollLoop"]}
{"id": "C93", "title": "Every tick is carried out and written", "statement": "Within a session, under a fair scheduler and without write errors, every firing of the update ticker leads to a visit of every routed universe and to all datagrams that are due at that moment being written to the connection, in order.", "quantifier": "every infinite fair execution, every firing of the ticker, every order of visiting", "why_tests_cant": "a statement about infinite executions in which the update loop competes for the lock and for a queue of ten entries", "anchors": ["controller.go:Controller.dmxUpdateLoop", "node.go:Node.sendLoop"]}
{"id": "C94", "title": "The lamp follows the call", "statement": "Within a session, under a fair scheduler and without write errors: if SendDMXToAddress(d, a) takes effect while a is routed to a node that has a buffer for a, the update ticker fires again with the data due, a stays routed to the node and there is no other call for a, then an ArtDMX datagram for a with exactly the data d is written to the node's address.", "quantifier": "every infinite fair execution, all data, all universes, whatever else arrives, is sent or is called meanwhile", "why_tests_cant": "end-to-end through the caller, the tables, the update loop, the queue and the send loop, under every interleaving", "anchors": ["controller.go:Controller.SendDMXToAddress", "controller.go:Controller.dmxUpdateLoop", "node.go:Node.sendLoop"]}
{"id": "C95", "title": "The example programs choose a predictable address", "statement": "The programs example/node and example/controller work with the first address of the host that lies in 2.0.0.0/8 (in short or sixteen-byte form); on a host without one, with the last address of the list; without addresses, with none. On a host without an address in 2.0.0.0/8 whose last address is IPv6, the node announces 0.0.0.0.", "quantifier": "every list of interface addresses", "why_tests_cant": "the addresses of a host are not under the control of a test; the fallback depends on the order of the list", "anchors": ["example/node/main.go:main", "example/controller/main.go:main", "config.go:ArtPollReplyFromConfig"]}
{"id": "C96", "title": "The poll example does not panic", "statement": "Whatever datagrams arrive and however its two goroutines are interleaved, example/poll does not panic.", "quantifier": "every sequence of datagrams, read errors and scheduling decisions", "why_tests_cant": "needs hostile datagrams and a race between the reader and the parser", "anchors": ["example/poll/main.go:main", "packet/packet.go:Unmarshal"]}
{"id": "C97", "title": "The poll example prints the announcements it receives", "statement": "Whenever the main goroutine of example/poll waits, it has printed exactly the announcements among the datagrams that it has received, as they arrived.", "quantifier": "every sequence of datagrams, read errors and scheduling decisions", "why_tests_cant": "the slice that goes through the channel shares its memory with the reader's buffer; the effect depends on the schedule", "anchors": ["example/poll/main.go:main", "packet/packet.go:Unmarshal", "config.go:ConfigFromArtPollReply"]}
{"id": "C98", "title": "What the examples send is understood", "statement": "The datagram of example/poll is accepted as an ArtPoll; the datagram of example/simpledmx is accepted as ArtDMX for net 0, universe 0 with 512 channels, of which channels 1 and 4 are 255 and all others 0.", "quantifier": "all 512 channels", "why_tests_cant": "a test could check this one; it ties the examples to the decoder", "anchors": ["example/poll/main.go:main", "example/simpledmx/main.go:main", "packet/packet.go:Unmarshal"]}
{"id": "C99", "title": "In a network of library hosts every packet handed to a call-back was written by another host", "statement": "Let every host of a network run the library, and let the network lose, delay, reorder and duplicate datagrams but neither change nor invent them. Then every packet for which a call-back is called on a host decodes from a datagram that some host wrote, unchanged, to a destination from which it reaches this host, and that host's address differs from this host's own.", "quantifier": "every number of hosts, configuration, reachability relation, interleaving and delivery order", "why_tests_cant": "needs several processes and every behaviour of the network", "anchors": ["node.go:recvLoop", "node.go:handlePacket", "node.go:sendLoop", "packet/packet.go:Unmarshal"]}
{"id": "C100", "title": "Hosts that run the library understand one another", "statement": "If every host of the network has a declared style code (0 to 6), then no host ever discards a datagram because it does not decode.", "quantifier": "every network as in C99", "why_tests_cant": "needs every datagram that any host can write in any state", "anchors": ["packet/packet.go:Unmarshal", "node.go:recvLoop", "node.go:sendLoop", "controller.go:dmxUpdateLoop"]}
{"id": "C101", "title": "Light comes from a controller, carries its data and goes where it was announced", "statement": "In such a network every ArtDMX packet handed to a call-back comes from a controller; its 512 channels are zero or were passed to SendDMXToAddress on that controller for that very universe; it was sent to the address announced by another host with an output port whose base address is that universe. If what is sent to an announced address reaches only the host that announces it, a host gets DMX only for its own base address, and only if it has an output port.", "quantifier": "every network as in C99, every call-back", "why_tests_cant": "end-to-end over several processes, for all schedules", "anchors": ["controller.go:SendDMXToAddress", "controller.go:dmxUpdateLoop", "controller.go:updateNode", "config.go:ConfigFromArtPollReply", "config.go:ArtPollReplyFromConfig"]}
{"id": "C102", "title": "The node table of a controller lists hosts of the network, each at most once", "statement": "In such a network, whenever the lock of a controller is free, every node in its table is the announced configuration of a host with a valid configuration and an address other than the controller's, and the table has at most as many nodes as there are hosts.", "quantifier": "every network as in C99", "why_tests_cant": "needs every history of announcements, losses, duplicates and timeouts", "anchors": ["controller.go:updateNode", "controller.go:pollLoop", "controller.go:deleteNode"]}
{"id": "C103", "title": "Polling does not cause a storm of replies", "statement": "If the network delivers no datagram twice to a host, the ArtPollReply datagrams that this host writes are no more than the ArtPoll datagrams written by all hosts together plus the polls that its own pollLoop passes to itself.", "quantifier": "every network as in C99 in which nothing is delivered twice to the host", "why_tests_cant": "a bound over all executions", "anchors": ["node.go:pollReplyLoop", "node.go:handlePacketPoll", "controller.go:pollLoop"]}
{"id": "C104", "title": "Controllers find the nodes they can reach", "statement": "When pollLoop of a controller begins to poll in a network that delivers every datagram to every host it reaches, and the poll reaches a host that is a node (or a controller with output ports) and whose reply reaches the controller, and neither takes the other's address for its own, then later the controller is in a state in which it knows a node with the announced configuration and, if that node has output ports, routes its base address to it. If the network loses datagrams, but not all of those that are written again and again, and pollLoop polls again and again, the same holds again and again.", "quantifier": "every network of hosts, every fair infinite execution within one session of every host in which no write fails, every controller and node with the built-in call-backs", "why_tests_cant": "a statement about what happens eventually under every fair schedule, with every other host doing anything meanwhile", "anchors": ["controller.go:pollLoop", "node.go:handlePacketPollReply", "controller.go:updateNode", "node.go:pollReplyLoop", "node.go:handlePacketPoll", "node.go:sendLoop", "node.go:recvLoop"]}
{"id": "C105", "title": "What is sent to a universe reaches the light", "statement": "In a network that delivers every datagram to every host it reaches: if SendDMXToAddress stores data for a universe that is routed to a known node with a buffer for it, the address of that node reaches a host with a call-back for DMX, the update ticker of the controller fires later and the data is then due, the universe stays routed to the node and there is no other call for it, then the call-back of that host is later called with exactly this data for exactly this universe.", "quantifier": "every network of hosts, every fair infinite execution within one session of every host in which no write fails, every universe and all data", "why_tests_cant": "a statement about what happens eventually under every fair schedule of two processes", "anchors": ["controller.go:SendDMXToAddress", "controller.go:dmxUpdateLoop", "node.go:sendLoop", "node.go:recvLoop", "node.go:handlePacket"]}
{"id": "C106", "title": "The node listens again and again", "statement": "From every point of a session on the reader goroutine is later in ReadFromUDP on the connection that is open, whatever arrives, is decoded, is answered or is dropped meanwhile.", "quantifier": "every fair infinite execution within one session of a Node or Controller, every past before it", "why_tests_cant": "a statement about what happens eventually under every fair schedule", "anchors": ["node.go:recvLoop", "node.go:handlePacket"]}
{"id": "C107", "title": "A network can go on for ever", "statement": "From every state of a network in which a session is on at every host, nothing has panicked and no read has failed, there is an infinite execution that is fair to every goroutine, in which no write fails, every datagram is delivered exactly once to every host it reaches, and the poll, the garbage collection and the DMX ticker of every controller fire again and again. In every fair execution of this kind, even one in which datagrams are lost but not all of those written again and again, every controller knows again and again every node that it can meet.", "quantifier": "every non-empty network of hosts, every state reached by any history of starts, stops, calls and arrivals", "why_tests_cant": "existence of an infinite schedule from every reachable state; it also shows that what the liveness properties assume of the scheduler and the network can be met from everywhere", "anchors": ["controller.go:pollLoop", "controller.go:dmxUpdateLoop", "node.go:recvLoop", "node.go:sendLoop", "node.go:pollReplyLoop"]}
{"id": "C108", "title": "Light data is written in order", "statement": "The ArtDMX datagrams on the wire are among those made by the update loop, in their order. For one node the sequence numbers count upwards modulo 256. For one universe of a node the data is zeros or that of a call of SendDMXToAddress for the universe, and never that of an earlier call than in a datagram before.", "quantifier": "every schedule of all goroutines, every number of sessions, every failing write, every number of nodes and calls", "why_tests_cant": "the order depends on the interleaving of callers, update loop and sendLoop over an unbounded history; a test sees a few schedules", "anchors": ["controller.go:dmxUpdateLoop", "controller.go:SendDMXToAddress", "controller.go:dmxUpdate", "node.go:sendLoop"]}
{"id": "C109", "title": "The number of goroutines is bounded", "statement": "There is a fixed bound on the number of goroutines that a node or a controller has at any time, not counting those of the user.", "quantifier": "every schedule, every stream of incoming datagrams, every number of sessions", "why_tests_cant": "a bound over all schedules and all traffic; the refutation needs a state for every number n", "anchors": ["node.go:recvLoop", "node.go:handlePacket", "node.go:Start", "controller.go:Start"]}
{"id": "C110", "title": "A configuration error says what is wrong", "statement": "Every error returned by validate describes the configuration: the number it prints is the number of ports that is too large, or it names the first port whose input and output protocols differ, together with the two protocols.", "quantifier": "every configuration, with any number of ports", "why_tests_cant": "the tests only check that there is an error, for a few configurations", "anchors": ["config.go:validate"]}
{"id": "C111", "title": "Announced texts are NUL-terminated", "statement": "In the announcement of every configuration the short name, the long name and the node report end with a zero byte, as Art-Net demands.", "quantifier": "every configuration, every text", "why_tests_cant": "every length and content of three texts", "anchors": ["config.go:ArtPollReplyFromConfig", "packet/artpollreply.go:MarshalBinary"]}
{"id": "C112", "title": "Connection returns an open connection or nil", "statement": "At any time Connection returns nil or a connection that is open.", "quantifier": "every schedule, every sequence of Start and Stop, successful or not", "why_tests_cant": "all histories of life cycle calls and all interleavings", "anchors": ["node.go:Connection", "node.go:Start", "node.go:Stop"]}
{"id": "C113", "title": "Stop closes every connection", "statement": "A node has at most one open connection, which is the one returned by Connection, and none after Stop has returned.", "quantifier": "every schedule and every sequence of Start and Stop in which no port can be listened to twice, or in which every Start waits for the goroutines of the session before", "why_tests_cant": "all histories of life cycle calls and all interleavings", "anchors": ["node.go:Start", "node.go:Stop", "node.go:Connection"]}
{"id": "C114", "title": "Life cycle calls from several goroutines leave a consistent node", "statement": "Start, Stop, RegisterCallback and DeregisterCallback may be called by several goroutines; when they have all returned without a panic the node is either stopped (its shutdown channel and its connection are closed) or started (its shutdown channel is open), and its channels were made by one call of Start.", "quantifier": "every number of goroutines and every interleaving of their statements", "why_tests_cant": "all interleavings of any number of calls", "anchors": ["node.go:Start", "node.go:Stop", "node.go:RegisterCallback", "controller.go:Start", "controller.go:Stop"]}
{"id": "C115", "title": "No more Stops than Starts complete", "statement": "However the calls overlap, the number of calls of Stop that get past close(n.shutdownCh) is at most the number of calls of Start; a panic of a life cycle call has a Stop among the calls, and is the close of a nil or closed channel or, for a Controller, the use of a nil ticker.", "quantifier": "every number of goroutines and every interleaving of their statements", "why_tests_cant": "all interleavings of any number of calls", "anchors": ["node.go:Stop", "node.go:Start", "controller.go:Stop"]}
{"id": "C116", "title": "Life cycle calls never wait", "statement": "Start, Stop, RegisterCallback and DeregisterCallback can always go on until they return or panic, after at most fifteen statements of their own.", "quantifier": "every number of goroutines and every interleaving of their statements", "why_tests_cant": "all interleavings of any number of calls; absence of a hang", "anchors": ["controller.go:Stop", "node.go:Stop", "node.go:Start"]}
{"id": "C117", "title": "The map of callbacks is written only while the node is stopped", "statement": "RegisterCallback and DeregisterCallback change the map of callbacks only while the node is stopped, and never two of them at once.", "quantifier": "every number of goroutines and every interleaving of their statements", "why_tests_cant": "all interleavings of any number of calls", "anchors": ["node.go:RegisterCallback", "node.go:DeregisterCallback", "node.go:isShutdown"]}
{"id": "C118", "title": "The result of Unmarshal is determined for every datagram", "statement": "For every datagram, packet.Unmarshal returns without panicking the packet and the error that a table of the protocol gives: which header checks come first, which opcode selects which packet, how many bytes that packet needs, which bytes become which fields, and which error is returned with which packet otherwise.", "quantifier": "every byte string", "why_tests_cant": "the whole input space, including the packet returned beside an error", "anchors": ["packet/packet.go:Unmarshal", "packet/header.go:unmarshal", "packet/artdmx.go:UnmarshalBinary", "packet/artpollreply.go:UnmarshalBinary"]}
{"id": "C119", "title": "Log entries name their source", "statement": "Whatever fields the logger of the user has, every entry logged by a Node has type=Node, every entry logged by a Controller has type=Controller, the other fields of the user are kept, and starting again adds no field.", "quantifier": "every logger of the user and every number of Starts", "why_tests_cant": "all loggers and any number of restarts", "anchors": ["logger.go:With", "node.go:NewNode", "controller.go:NewController", "controller.go:Start"]}
{"id": "C120", "title": "Buffers only for claimed universes", "statement": "A known node has DMX buffers only for the universes it claims.", "quantifier": "every history of replies, sends, ticks, garbage collection passes and restarts", "why_tests_cant": "unbounded histories", "anchors": ["controller.go:updateNode", "controller.go:dmxUpdateLoop", "controller.go:dmxUpdate"]}
{"id": "C121", "title": "A universe claimed anew starts dark", "statement": "When a known node claims a universe it did not claim before, it is sent zeros for that universe until SendDMXToAddress is called for it.", "quantifier": "every history of replies, sends, ticks, garbage collection passes and restarts", "why_tests_cant": "unbounded histories", "anchors": ["controller.go:updateNode", "controller.go:dmxUpdateLoop", "controller.go:SendDMXToAddress"]}
{"id": "C122", "title": "String methods of the registers show the documented bits", "statement": "The String method of every register prints each documented flag by its bit and each documented field by its value, and two values of a register of flags print alike exactly if they agree in all documented flags.", "quantifier": "every value of every register", "why_tests_cant": "all values of all registers and all pairs of them", "anchors": ["packet/code/talktome.go:String", "packet/code/status1.go:String", "packet/code/status2.go:String", "packet/code/goodinput.go:String", "packet/code/goodoutput.go:String", "packet/code/porttype.go:String", "packet/code/swmacro.go:String", "packet/code/swremote.go:String"]}
{"id": "C123", "title": "Declared constants are valid and print their own name", "statement": "Every declared operation, style, report and priority code has the documented value, prints the name it is declared by, differs from the others of its type, and the valid operation and style codes are exactly the declared ones; OpDMX is OpOutput.", "quantifier": "every declared constant; every operation and style code", "why_tests_cant": "all 65536 operation codes and all declared constants", "anchors": ["packet/code/opcode.go:OpCode", "packet/code/stylecode.go:StyleCode", "packet/code/nodereportcode.go:NodeReportCode", "packet/code/prioritycode.go:PriorityCode"]}
{"id": "C124", "title": "Callbacks are called in the order of arrival", "statement": "The call-backs are called in the order in which the datagrams were received.", "quantifier": "every execution in which Start waits for the goroutines of the session before", "why_tests_cant": "depends on the order in which the scheduler runs the goroutines that recvLoop starts", "anchors": ["node.go:recvLoop", "node.go:handlePacket"]}
{"id": "C125", "title": "The controller acts on the newest announcement", "statement": "A controller processes announcements in the order in which they were received, so that the tables follow the newest announcement of a node.", "quantifier": "every execution in which Start waits for the goroutines of the session before", "why_tests_cant": "depends on the order in which the scheduler runs the goroutines that recvLoop starts", "anchors": ["node.go:recvLoop", "node.go:handlePacketPollReply", "controller.go:pollLoop"]}
{"id": "C126", "title": "Nothing is lost between the stages", "statement": "Every call of the built-in call-backs leads to its effect or is still under way: the polls received and made are the replies put into sendCh plus those in pollCh or held by a goroutine, and the announcements received are those processed plus those in pollReplyCh or held by a goroutine.", "quantifier": "every execution, including those that stop and start the node again", "why_tests_cant": "a lost packet in a rare interleaving leaves no trace; counting over every reachable state excludes it", "anchors": ["node.go:pollReplyLoop", "node.go:handlePacketPoll", "node.go:handlePacketPollReply", "controller.go:pollLoop"]}
{"id": "C127", "title": "Light data goes only to hosts that announced themselves", "statement": "ArtDMX is written only to addresses from which a datagram has arrived.", "quantifier": "every execution", "why_tests_cant": "a test uses honest nodes; the claim is about every datagram that any host can send", "anchors": ["controller.go:updateNode", "config.go:ConfigFromArtPollReply", "node.go:recvLoop"]}
{"id": "C128", "title": "How large the tables of a controller get", "statement": "There are at most 2^32 known nodes and at most 65536 routes, at most four per known node; after a pass of gcNode the known nodes are among the addresses announced in the seven seconds before, and nothing else bounds the table.", "quantifier": "every history of announcements, passes, ticks, calls and restarts, and every execution", "why_tests_cant": "the bound concerns histories of any length, with more nodes than a test can have", "anchors": ["controller.go:updateNode", "controller.go:gcNode", "controller.go:pollLoop"]}
{"id": "C129", "title": "A universe is routed by the last event that concerns it", "statement": "A universe is routed to a known node exactly if the last event that concerns the universe is a tracked announcement that claims it and contains the node's address. Events that concern a universe are announcements of a node that claims it before or after, the removal of a node that claims it, and restarts. So whatever happened before, one announcement puts the universes it claims in order.", "quantifier": "every history of announcements, passes of gcNode, ticks, calls and restarts", "why_tests_cant": "the claim relates the tables to histories of any length with any number of colliding nodes", "anchors": ["controller.go:updateNode", "controller.go:gcNode", "controller.go:Start"]}
{"id": "C130", "title": "Amplification is bounded", "statement": "A Node that does not belong to a Controller writes only ArtPollReply packets of 239 bytes, no more than ArtPoll datagrams have arrived from other hosts; in bytes at most 239/14 times what has arrived from other hosts.", "quantifier": "every execution, including restarts", "why_tests_cant": "the bound is for everything that other hosts may send, in every interleaving", "anchors": ["node.go:pollReplyLoop", "node.go:recvLoop", "node.go:handlePacketPoll"]}
{"id": "C131", "title": "Length says how many data bytes follow", "statement": "A datagram with a valid header and the opcode of ArtDiagData, ArtCommand or ArtNzs is accepted exactly if its field Length is between 1 and 512 and that many data bytes follow, as the comments in the packet definitions say.", "quantifier": "every byte sequence of any length with one of the three opcodes", "why_tests_cant": "the claim is about every Length together with every number of data bytes; tests use full packets only", "anchors": ["packet/artnzs.go:ArtNzsPacket", "packet/artcommand.go:ArtCommandPacket", "packet/artdiagdata.go:ArtDiagDataPacket", "packet/packet.go:unmarshalPacket"]}
{"id": "C132", "title": "The traffic of a controller is bounded", "statement": "A Node or Controller writes ArtPollReply packets of 239 bytes, ArtPoll packets of 14 bytes and ArtDMX packets of 530 bytes and nothing else. There are at most as many ArtPollReply packets as polls handled and polls of its own, at most as many ArtPoll packets as polls of its own and calls of Start that could listen, and at most one ArtDMX packet for every universe a tick goes through. A tick goes through at most 65536 universes and at most four for every known node.", "quantifier": "every execution, including restarts and overlapping loops", "why_tests_cant": "the bound counts everything that is written under all interleavings of the loops with any traffic", "anchors": ["controller.go:pollLoop", "controller.go:dmxUpdateLoop", "node.go:pollReplyLoop", "node.go:sendLoop"]}
{"id": "C133", "title": "A node is forgotten only after five missed polls", "statement": "A node that leaves at most four ArtPoll packets in a row without an answer, and answers the others at once, stays known (the comment in gcNode says that nodes are stale after 5 missed ArtPoll's).", "quantifier": "every history of a controller, every number of missed polls and every delay of the answers", "why_tests_cant": "the claim is about all timings of polls, answers and gc passes", "anchors": ["controller.go:gcNode", "controller.go:pollLoop", "controller.go:updateNode"]}
{"id": "C134", "title": "Universes do not disturb one another", "statement": "What is sent for a universe (destinations, channels, order) depends on announcements, gc passes, restarts, tick times and the calls of SendDMXToAddress for that universe only: calls for other universes, and the order in which ticks go through the map, make no difference but for sequence numbers.", "quantifier": "every pair of histories that agree as far as the universe is concerned", "why_tests_cant": "it compares all pairs of histories", "anchors": ["controller.go:SendDMXToAddress", "controller.go:dmxUpdateLoop", "controller.go:setDMXBuffer", "controller.go:dmxUpdate"]}
{"id": "C135", "title": "The iteration order of maps does not matter", "statement": "Two histories that differ only in the order in which ticks go through OutputAddress lead to the same tables, nodes, buffers and sequence numbers, and send the same datagrams except for their order within a tick and their sequence numbers.", "quantifier": "every history and every choice of the iteration orders", "why_tests_cant": "Go chooses the order at random; a test sees a few of them", "anchors": ["controller.go:dmxUpdateLoop"]}
{"id": "C136", "title": "Hosts that do not claim a universe cannot disturb it", "statement": "Take two histories that differ only in the announcements of hosts that never claim a given universe, in the sends to other universes, and in the iteration orders; every gc pass reads one time, the same in both. Then the datagrams carrying the universe go to the same destinations with the same channels in the same order in both histories; only their sequence numbers may differ.", "quantifier": "every pair of such histories, every set of hosts and every universe", "why_tests_cant": "pairs of whole histories, with any number of other hosts that come, change their ports, fall silent and are collected", "anchors": ["controller.go:updateNode", "controller.go:deleteNode", "controller.go:gcNode", "controller.go:dmxUpdateLoop"]}
{"id": "C137", "title": "A node that announces itself on several pages is sent data for all of them", "statement": "A node with more than four ports sends one ArtPollReply per page of four, all with the same IP and different BindIndex. The controller then routes the universes of all pages to the node. This is false: each page replaces the ports of the page before. Exactly: of the universes on the pages, those on the page that arrived last are routed to the node and the others to nobody.", "quantifier": "every history, every list of pages", "why_tests_cant": "any number of pages after any history, with universes shared between pages and with other hosts", "anchors": ["controller.go:updateNode", "packet/artpollreply.go:BindIndex"]}
{"id": "C138", "title": "Changes of Config are announced", "statement": "When user code changes Node.Config of a running node, the next ArtPollReply shows the change. This is false: pollReplyLoop builds its reply once, before its loop. What holds: a reply shows Config as it was when its pollReplyLoop began; after a Stop and Start with no earlier pollReplyLoop alive all replies show the new Config; broadcast addresses set by SetOption take effect at the next datagram; a frame rate set by SetOption takes effect at the next Start.", "quantifier": "every execution in which Config, the broadcast addresses and the frame rate change at any moments", "why_tests_cant": "changes may come between any two steps of any goroutine, over any number of sessions", "anchors": ["node.go:pollReplyLoop", "options.go:SetOption", "controller.go:dmxUpdateLoop", "controller.go:pollLoop"]}
{"id": "C139", "title": "Changing Config or the addresses causes no panic", "statement": "Whether and how a step panics does not depend on the values that Node.Config, the local address and the broadcast addresses have at that moment, whatever values they had before; also not on a Config that Start would refuse.", "quantifier": "every state, every action, every two values of the fields", "why_tests_cant": "the values are arbitrary, with any numbers of ports and texts of any length, and change between any two steps", "anchors": ["node.go:pollReplyLoop", "config.go:ArtPollReplyFromConfig", "options.go:SetOption"]}
{"id": "C140", "title": "Receivers that check sequence numbers accept the stream", "statement": "At every frame rate that can be configured, of two consecutive ArtDMX datagrams for the same universe to the same node (the universe being routed to the node all the time), a receiver that looks at the sequence number takes the second for newer: one of the numbers is 0, or the second is ahead of the first by 1 to 127 modulo 256.", "quantifier": "every frame rate, every history of replies, gc passes, restarts, calls of SendDMXToAddress and ticks at least one period apart, every iteration order of the routing map, every universe and node", "why_tests_cant": "The sequence number belongs to the node, not to the universe, so the gap between two datagrams for one universe depends on how often the other universes of the node are sent meanwhile. It exceeds half of the number space only for a node with four universes, of which three are updated at every tick and one is only kept alive, at more than 163 frames per second.", "anchors": ["controller.go:dmxUpdate", "controller.go:dmxUpdateLoop", "packet/artdmx.go:ArtDMXPacket"]}
{"id": "C141", "title": "As many sessions as successful Starts", "statement": "When Start, Stop, RegisterCallback and DeregisterCallback are called by any number of goroutines and have all returned, the loops of the node (and of the controller) have been begun exactly once for every Start that returned nil.", "quantifier": "every configuration, every interleaving of the statements of any number of calls, every outcome of net.ListenPacket", "why_tests_cant": "the interleavings of the calls are unbounded in number", "anchors": ["node.go:Node.Start", "controller.go:120-136"]}
{"id": "C142", "title": "dmxUpdateLoop is alone with the tables", "statement": "While dmxUpdateLoop goes through the routing table no other goroutine does so, and no step of anybody else (another goroutine, a caller of SendDMXToAddress, a life cycle call) changes the tables, the buffers or the sequence numbers.", "quantifier": "every configuration, every execution with any number of sessions, every goroutine and every action", "why_tests_cant": "an unprotected access shows only in particular schedules", "anchors": ["controller.go:120-123", "controller.go:214-232", "controller.go:257-289", "controller.go:295-297", "controller.go:375-377"]}
{"id": "C143", "title": "One ArtPoll per Start and per firing of the poll ticker", "statement": "A controller queues exactly one ArtPoll for every Start that could listen and for every firing of the poll ticker, always the same 14 bytes to its broadcast address; a Node queues none. Within a session, under a fair scheduler and without write errors, as many are written as the ticker fires.", "quantifier": "every configuration, every execution with any number of sessions; every infinite fair execution within a session", "why_tests_cant": "pollLoop competes with other goroutines for a queue of ten entries, and the firings are counted over unbounded executions", "anchors": ["controller.go:152-181", "node.go:182-203"]}
{"id": "C144", "title": "Every firing of the gc ticker forgets the silent nodes", "statement": "Within a session, under a fair scheduler, every firing of the gc ticker leads to a pass of gcNode; a node that has not been heard for 7 s when the pass begins and is not heard again is in the table no more from then on, and no more ArtDMX is made for its address.", "quantifier": "every infinite fair execution within a session, every firing, every address, every reading of the clock that does not go backwards", "why_tests_cant": "a statement about infinite executions in which gcNode competes for nodeLock", "anchors": ["controller.go:183-185", "controller.go:375-393"]}
{"id": "C145", "title": "The configuration shows in the announcement and nowhere else", "statement": "Two Nodes, or two Controllers with the same frame rate, that both have the style StController or both not, and both can be started or both not, do the same in every execution in which they agree on which datagrams are their own: each action is possible in both or in neither, and they call the same call-backs, return the same results, panic alike, keep the same tables and write the same datagrams in the same order, each with its own ArtPollReply and its own broadcast addresses.", "quantifier": "all pairs of configurations, names, addresses, ports and broadcast addresses, every execution with any number of sessions", "why_tests_cant": "a relation between the executions of two systems, over all pairs of configurations and all interleavings", "anchors": ["node.go:137-305", "controller.go:104-290", "config.go:145-215"]}
{"id": "C146", "title": "The log agrees with what happened", "statement": "Read from the beginning, the log of a Node or Controller tells what happened: the entries about datagrams give, in order, the destination and size of every datagram written, the source and size of every datagram accepted, the source, contents and decoding error of every datagram that did not decode, and every packet without call-back; the entries about nodes, replayed, give the addresses and names of the nodes that the Controller knows; a call of SendDMXToAddress logs an error exactly when it does not store the data; the update loop never logs an error; and there is one entry for every Start that accepts the configuration and an error exactly when one could not listen.", "quantifier": "all systems and all executions with any number of sessions, all datagrams, schedules, clocks and calls", "why_tests_cant": "an equality between the whole log and the whole history over all interleavings; a test sees a few entries of a few runs", "anchors": ["node.go:97-305", "controller.go:187-232", "controller.go:258-401", "logger.go:55-57"]}
{"id": "C147", "title": "Tickers forbid little and allow nothing new", "statement": "With its three tickers as they are - a channel that holds at most one tick, a tick at most once per period and none after the ticker is stopped - the Controller can do nothing that it could not do if ticks came at any moment; and every execution of that kind in which pollLoop receives no tick after Stop is one that the tickers allow. Every tick received was in the channel or was sent meanwhile; after a ticker is stopped at most the one tick in its channel is received, and none where Stop discards it.", "quantifier": "all parameters, all executions, both behaviours of Ticker.Stop", "why_tests_cant": "a simulation in both directions between two models over all executions; a test runs in real time with one schedule", "anchors": ["controller.go:120-150", "controller.go:168-190", "controller.go:234-262"]}
{"id": "C148", "title": "After Stop no ticker runs", "statement": "When Stop of a Controller has returned, every ticker that it has made is stopped.", "quantifier": "all controllers and all executions with any number of sessions", "why_tests_cant": "a running ticker that nobody reads has no visible effect, and whether one is left depends on the order of calls of Start and Stop", "anchors": ["controller.go:130-131", "controller.go:139-150", "controller.go:234-262"]}
{"id": "C149", "title": "Rates in real time", "statement": "Until any moment a Controller has written at most one ArtPoll for every Start that could listen plus one for every three seconds since it was made, and for every universe at most one ArtDMX per period of the frame rate, times the number of Starts that could listen. In any stretch of time the ticks received for a purpose are at most three more than periods have passed, times the number of Starts.", "quantifier": "all parameters, frame rates, universes and executions; all pairs of moments", "why_tests_cant": "a bound on all schedules, including late goroutines that find a tick waiting; a test measures one schedule", "anchors": ["controller.go:20-30", "controller.go:130-131", "controller.go:168-190", "controller.go:234-300"]}
{"id": "C150", "title": "No data race in the Go memory model", "statement": "When Start, RegisterCallback and DeregisterCallback are only called while they are refused or after all goroutines have returned, any two accesses to a shared variable of which one writes are ordered by happens-before: by go statements, channels and locks.", "quantifier": "all parameters, all executions, all pairs of accesses", "why_tests_cant": "the race detector sees only the accesses of the schedule it runs; here all schedules are meant, and the pairs that only happen to be apart in time count", "anchors": ["node.go:97-142", "node.go:158-199", "node.go:213-268", "node.go:274-330", "controller.go:120-150", "controller.go:168-232", "controller.go:255-401"]}
{"id": "C151", "title": "The slice Nodes is the list of nodes", "statement": "With Nodes as a slice of an array that append and gcNode write to in place, and any capacity of new arrays, no history dereferences a nil pointer or panics, Nodes lists exactly the nodes that were added and not yet forgotten, in order, and the nodes, both tables and the packets sent are those of the model with lists.", "quantifier": "all frame rates, all histories, all capacities", "why_tests_cant": "the capacities that append chooses and the interleaving of additions and removals are unbounded; a shared array shows only for some of them", "anchors": ["controller.go:87", "controller.go:295-349", "controller.go:375-401"]}
{"id": "C152", "title": "A slice read from Nodes stays as it was", "statement": "A caller that has read the exported field Nodes keeps a slice that goes on listing the same nodes.", "quantifier": "all frame rates, all histories before and after the reading, all capacities", "why_tests_cant": "whether the old slice shares its array with Nodes depends on capacities and on the order of additions and removals", "anchors": ["controller.go:87", "controller.go:338", "controller.go:397"]}
{"id": "C153", "title": "The exported tables can be read", "statement": "In one session a program may read the exported fields Nodes, OutputAddress and InputAddress of a Controller at any time without a data race.", "quantifier": "all parameters, all executions, all readers", "why_tests_cant": "the race detector reports a race only when the schedule it runs has one; that reading is safe or unsafe is a statement about all schedules", "anchors": ["controller.go:87-90", "controller.go:295-349", "controller.go:375-401"]}
{"id": "C154", "title": "Critical sections are atomic", "statement": "An execution in which gcNode, updateNode and SendDMXToAddress change the tables of the controller in small steps while they hold nodeLock, with steps of other goroutines in between, leads to a state that an execution with whole sections leads to.", "quantifier": "all parameters, all ways to cut the sections into steps, all interleavings", "why_tests_cant": "a test sees the few interleavings that the scheduler chooses; that no interleaving shows a half-done section is a statement about all of them", "anchors": ["controller.go:120-122", "controller.go:214-232", "controller.go:295-349", "controller.go:375-401"]}
{"id": "C155", "title": "Every light datagram carries the data of the last call that reached the node", "statement": "The channels of every ArtDMX datagram that a controller sends to a node for a universe are those of the last call of SendDMXToAddress for that universe that reached the node before the tick, and zero if no call reached it. A call reaches a node if the universe is routed to it at that moment and the node either claimed the universe when it was added to the table or was found routed for it by an earlier tick.", "quantifier": "all histories of announcements, calls, ticks, clean-ups and restarts; all schedules of the goroutines", "why_tests_cant": "which call is the last one to reach a node depends on the whole history of routes and buffers; a test checks a few histories", "anchors": ["controller.go:40-54", "controller.go:57-78", "controller.go:214-232", "controller.go:264-282", "controller.go:295-349"]}
{"id": "C156", "title": "Setting the system clock does not disturb the controller", "statement": "What a controller sends and which nodes it knows do not depend on the wall clock of the host: two histories in which the same things happen at the same moments of the monotonic clock give the same datagrams, however the wall clock is set in between.", "quantifier": "all histories of announcements, calls, ticks, clean-ups and restarts; all readings of both clocks; all frame rates", "why_tests_cant": "a test cannot set the system clock, and certainly not to every value between any two instructions", "anchors": ["controller.go:236-239", "controller.go:261-276", "controller.go:311", "controller.go:334", "controller.go:381-385"]}
{"id": "C157", "title": "The log accounts for every datagram", "statement": "Once all goroutines have ended, the log has an entry for every datagram that was queued for sending, that it was written or that writing it failed; and every datagram that was read from another host has an entry that it was received, followed by its fate.", "quantifier": "all executions: all schedules, all arriving datagrams, all failing writes, any number of starts and stops", "why_tests_cant": "the datagrams that leave no trace are those in flight between two goroutines when Stop is called, and by definition nothing records them", "anchors": ["node.go:184-200", "node.go:216-243", "node.go:248-268", "node.go:274-280"]}
