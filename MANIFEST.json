{"claims": [
  {"property": "C01", "status": "proved", "theorems": ["Verif.Props.C01_dmx_wire_image"], "note": ""},
  {"property": "C02", "status": "proved", "theorems": ["Verif.Props.C02_dmx_round_trip"], "note": ""},
  {"property": "C03", "status": "proved", "theorems": ["Verif.Props.C03_dmx_acceptance"], "note": ""},
  {"property": "C04", "status": "proved", "theorems": ["Verif.Props.C04_unmarshal_never_panics"], "note": ""},
  {"property": "C05", "status": "proved", "theorems": ["Verif.Props.C05_header_gate"], "note": ""},
  {"property": "C06", "status": "proved", "theorems": ["Verif.Props.C06_dispatch_fidelity"], "note": ""},
  {"property": "C07", "status": "partial", "theorems": ["Verif.Props.C07_false", "Verif.Props.C07_partial", "Verif.Props.C07_exact"], "note": "False as stated: wire opcode 0x0021 is reported as a version error (C07_false). C07_partial covers every other opcode. C07_exact: the classification holds of a datagram with a valid header exactly when its opcode is not 0x0021."},
  {"property": "C08", "status": "proved", "theorems": ["Verif.Props.C08_truncated_rejected", "Verif.Props.C08_bound_exact"], "note": ""},
  {"property": "C09", "status": "proved", "theorems": ["Verif.Props.C09_trailing_irrelevant"], "note": ""},
  {"property": "C10", "status": "proved", "theorems": ["Verif.Props.C10_round_trip"], "note": ""},
  {"property": "C11", "status": "partial", "theorems": ["Verif.Props.C11_constructed_fresh", "Verif.Props.C11_constructor_rejected", "Verif.Props.C11_false", "Verif.Props.C11_partial", "Verif.Props.C11_exact"], "note": "False as stated: the constructors of nine of the twelve packet types leave OpCode zero (C11_constructed_fresh) and marshalling does not set it, so the datagram is rejected (C11_constructor_rejected, C11_false). C11_partial covers ArtPoll, ArtDMX and ArtPollReply. C11_exact: of the packets from the constructors exactly ArtPoll, ArtPollReply and ArtDMX come back."},
  {"property": "C12", "status": "partial", "theorems": ["Verif.Props.C12_second_marshal_swaps", "Verif.Props.C12_false", "Verif.Props.C12_second_rejected", "Verif.Props.C12_period_two", "Verif.Props.C12_partial", "Verif.Props.C12_exact"], "note": "False as stated: MarshalBinary swaps the opcode in the receiver, and for ArtPollReply the port, so the second call of most types emits byte-swapped fields (C12_false). C12_partial covers exactly the packets for which it holds (C12_exact): ArtPoll, ArtDMX and those whose swapped bytes are equal."},
  {"property": "C13", "status": "proved", "theorems": ["Verif.Props.C13_marshal_total_fixed_size"], "note": ""},
  {"property": "C14", "status": "proved", "theorems": ["Verif.Props.C14_pollreply_acceptance"], "note": ""},
  {"property": "C15", "status": "proved", "theorems": ["Verif.Props.C15_port_normalised"], "note": ""},
  {"property": "C16", "status": "proved", "theorems": ["Verif.Props.C16_forward_stable"], "note": ""},
  {"property": "C17", "status": "proved", "theorems": ["Verif.Props.C17_command_esta"], "note": ""},
  {"property": "C18", "status": "proved", "theorems": ["Verif.Props.C18_padding"], "note": ""},
  {"property": "C19", "status": "partial", "theorems": ["Verif.Props.C19_dmx_accepts_nzs", "Verif.Props.C19_pollreply_ignores_magic", "Verif.Props.C19_false", "Verif.Props.C19_partial", "Verif.Props.C19_exact"], "note": "False as stated: ArtDMX.UnmarshalBinary ignores the opcode and ArtPollReply.UnmarshalBinary ignores the identification (C19_dmx_accepts_nzs, C19_pollreply_ignores_magic). C19_partial covers the other combinations. C19_exact says for every packet type and every byte string exactly when UnmarshalBinary accepts it."},
  {"property": "C20", "status": "partial", "theorems": ["Verif.Props.C20_dmx_stale_tail", "Verif.Props.C20_false", "Verif.Props.C20_partial", "Verif.Props.C20_exact"], "note": "False as stated: ArtDMX keeps stale channels (C20_dmx_stale_tail). C20_partial covers the other eleven types and describes ArtDMX exactly. C20_exact: two ArtDMX objects decode a datagram alike exactly if they agreed on the channels beyond its length."},
  {"property": "C21", "status": "partial", "theorems": ["Verif.Props.C21_false", "Verif.Props.C21_partial", "Verif.Props.C21_exact"], "note": "False as stated: only the low version byte is compared, so version 256 is rejected (C21_false). C21_partial: versions below 14 never accepted; low byte at least 14 never rejected for the version. C21_exact says exactly when Unmarshal answers an incompatible-version error, and with which byte."},
  {"property": "C22", "status": "partial", "theorems": ["Verif.Props.C22_false", "Verif.Props.C22_partial", "Verif.Props.C22_exact"], "note": "False as stated: a truncated datagram with a known opcode gives a zero packet together with the error (C22_false). C22_partial covers header and dispatch errors. C22_exact says exactly when Unmarshal answers a packet together with an error."},
  {"property": "C23", "status": "proved", "theorems": ["Verif.Props.C23_wire_layout", "Verif.Props.C23_pollreply_image"], "note": ""},
  {"property": "C24", "status": "proved", "theorems": ["Verif.Props.C24_flag_bits"], "note": ""},
  {"property": "C25", "status": "partial", "theorems": ["Verif.Props.C25_exact", "Verif.Props.C25_never_clears", "Verif.Props.C25_false", "Verif.Props.C25_partial"], "note": "False as stated for every flag: WithX(false) leaves the register unchanged (C25_never_clears). C25_partial: WithX(b).X() = b || X(). C25_exact: the value is read back exactly if it is true or the flag was clear."},
  {"property": "C26", "status": "partial", "theorems": ["Verif.Props.C26_exact", "Verif.Props.C26_portaddr_net", "Verif.Props.C26_indicator_normal", "Verif.Props.C26_false", "Verif.Props.C26_partial"], "note": "False as stated: the getters mask the wrong bits (C26_portaddr_net, C26_indicator_normal). C26_partial gives the exact behaviour on every register. C26_exact: for every register and value, when the value is read back."},
  {"property": "C27", "status": "proved", "theorems": ["Verif.Props.C27_porttype"], "note": ""},
  {"property": "C28", "status": "proved", "theorems": ["Verif.Props.C28_strings"], "note": ""},
  {"property": "C29", "status": "proved", "theorems": ["Verif.Props.C29_valid"], "note": ""},
  {"property": "C30", "status": "proved", "theorems": ["Verif.Props.C30_integer"], "note": ""},
  {"property": "C31", "status": "proved", "theorems": ["Verif.Props.C31_string"], "note": ""},
  {"property": "C32", "status": "proved", "theorems": ["Verif.Props.C32_validate"], "note": ""},
  {"property": "C33", "status": "proved", "theorems": ["Verif.Props.C33_port_table"], "note": ""},
  {"property": "C34", "status": "partial", "theorems": ["Verif.Props.C34_undeclared_style", "Verif.Props.C34_false", "Verif.Props.C34_partial", "Verif.Props.C34_exact", "Verif.Props.C34_record"], "note": "False as stated: a configuration with an undeclared style code validates but its announcement is rejected by every receiver (C34_undeclared_style, C34_false). C34_partial covers every valid configuration with one of the seven declared styles. C34_exact: for a valid configuration discovery with identity happens exactly if the style is declared. C34_record gives every field of what the controller then knows, including the report, the port, texts that are too long and addresses that are not IPv4, by a specification that calls none of the functions of config.go."},
  {"property": "C35", "status": "partial", "theorems": ["Verif.Props.C35_partial", "Verif.Props.C35_false", "Verif.Props.C35_exact"], "note": "False as stated: ArtPollReplyFromConfig announces neither SwIn/SwOut nor GoodInput/GoodOutput (C35_false). C35_partial: every port comes back at the base address with status 0; index and protocol survive. C35_exact: holds exactly for configurations whose ports have the base address and an empty status."},
  {"property": "C36", "status": "partial", "theorems": ["Verif.Props.C36_false", "Verif.Props.C36_partial", "Verif.Props.C36_exact"], "note": "False as stated: SubSwitch is ORed without a shift (C36_false). C36_partial gives the exact address, and shows for which switch values it is the Port-Address. C36_exact: holds exactly for announcements with the sub-net 0 and those without ports."},
  {"property": "C37", "status": "proved", "theorems": ["Verif.Props.C37_discovered_ports", "Verif.Props.C37_record"], "note": "C37_record gives every field read from an arbitrary reply."},
  {"property": "C38", "status": "proved", "theorems": ["Verif.Props.C38_decodeString"], "note": ""},
  {"property": "C39", "status": "proved", "theorems": ["Verif.Props.C39_one_per_ip"], "note": ""},
  {"property": "C40", "status": "proved", "theorems": ["Verif.Props.C40_routes_to_claimants", "Verif.Props.C40_dmx_goes_to_claimant"], "note": ""},
  {"property": "C41", "status": "proved", "theorems": ["Verif.Props.C41_claims_are_routed"], "note": ""},
  {"property": "C42", "status": "partial", "theorems": ["Verif.Props.C42_false", "Verif.Props.C42_partial", "Verif.Props.C42_removed_takes_all", "Verif.Props.C42_exact"], "note": "False as stated: expiry or update of a node removes every universe it lists, also those a live node claims (C42_false, C42_removed_takes_all). C42_partial: all other universes keep their routing. C42_exact says which replies and gc passes take away the routing of a universe."},
  {"property": "C43", "status": "proved", "theorems": ["Verif.Props.C43_gc_exact"], "note": ""},
  {"property": "C44", "status": "proved", "theorems": ["Verif.Props.C44_responsive_node_stays"], "note": ""},
  {"property": "C45", "status": "proved", "theorems": ["Verif.Props.C45_silent_node_forgotten"], "note": ""},
  {"property": "C46", "status": "partial", "theorems": ["Verif.Props.C46_exact", "Verif.Props.C46_partial", "Verif.Props.C46_false"], "note": "False as stated: data sent to a universe without a buffer (announced by a known node since the last tick) is dropped and the tick sends zeros (C46_false). C46_partial: with a buffer the last write wins in every history. C46_exact: without a buffer the later datagrams carry zeros."},
  {"property": "C47", "status": "proved", "theorems": ["Verif.Props.C47_one_packet_per_universe"], "note": ""},
  {"property": "C48", "status": "proved", "theorems": ["Verif.Props.C48_pending_is_sent"], "note": ""},
  {"property": "C49", "status": "proved", "theorems": ["Verif.Props.C49_keep_alive"], "note": ""},
  {"property": "C50", "status": "proved", "theorems": ["Verif.Props.C50_sequence_increments"], "note": ""},
  {"property": "C51", "status": "partial", "theorems": ["Verif.Props.C51_exact", "Verif.Props.C51_partial", "Verif.Props.C51_false"], "note": "False as stated: the 256th packet to a node has sequence number 0 (C51_false). C51_partial: zero exactly for every 256th packet. C51_exact: holds exactly for histories in which no node was sent 256 datagrams."},
  {"property": "C52", "status": "proved", "theorems": ["Verif.Props.C52_send_is_local"], "note": ""},
  {"property": "C53", "status": "proved", "theorems": ["Verif.Props.C53_blackout_first"], "note": ""},
  {"property": "C54", "status": "partial", "theorems": ["Verif.Props.C54_exact", "Verif.Props.C54_partial", "Verif.Props.C54_false"], "note": "False as stated: a universe that a known node newly announced has no buffer until the next tick and the data is dropped (C54_false). C54_partial: stored exactly if a buffer exists, and when buffers exist. C54_exact: kept exactly if the node claimed the universe when it became known or a tick since then found it routed to the node."},
  {"property": "C55", "status": "proved", "theorems": ["Verif.Props.C55_tracked_replies"], "note": ""},
  {"property": "C56", "status": "partial", "theorems": ["Verif.Props.C56_false", "Verif.Props.C56_partial"], "note": "False as stated: MaxFPS 0 divides by zero, negative or above 10^9 panics in NewTicker (C56_false). C56_partial: starts exactly for 1..10^9."},
  {"property": "C57", "status": "partial", "theorems": ["Verif.Props.C57_exact", "Verif.Props.C57_partial", "Verif.Props.C57_false"], "note": "False as stated: after a Start that could not listen (and returned an error) the node counts as running and registrations are ignored (C57_false). C57_partial: exact for every sequence if such a node counts as running; as stated if listening never fails. C57_exact: of the single systems only those that cannot be started have the property."},
  {"property": "C58", "status": "partial", "theorems": ["Verif.Props.C58_false", "Verif.Props.C58_partial", "Verif.Props.C58_exact"], "note": "False as stated: Stop on a new node closes a nil channel, Stop after Stop a closed one, Stop on a controller that never listened uses nil tickers (C58_false and examples). C58_partial: Stop on a started node never panics and is never blocked, under every schedule. C58_exact: a call of Stop panics exactly if the node is not started or the controller has never been able to listen."},
  {"property": "C59", "status": "proved", "theorems": ["Verif.Props.C59_start_invalid"], "note": "For a Node nothing changes; a Controller has already emptied its routing tables when its Node rejects the configuration (see C72)."},
  {"property": "C60", "status": "proved", "theorems": ["Verif.Props.C60_own", "Verif.Props.C60_form", "Verif.Props.C60_exactly_once", "Verif.Props.C60_arrived", "Verif.Props.C60_undecodable", "Verif.Props.C60_registered", "Verif.Props.C60_no_duplicates"], "note": "C60_own: a datagram counts as the Node's own exactly if its source is the address of the Node, in four bytes or as IPv4-mapped IPv6 address; C60_form: the form does not matter."},
  {"property": "C61", "status": "proved", "theorems": ["Verif.Props.C61_comparison", "Verif.Props.C61_own_ignored"], "note": ""},
  {"property": "C62", "status": "proved", "theorems": ["Verif.Props.C62_one_per_poll", "Verif.Props.C62_written", "Verif.Props.C62_polls_received", "Verif.Props.C62_node_own", "Verif.Props.C62_form", "Verif.Props.C62_wire_queued"], "note": ""},
  {"property": "C63", "status": "proved", "theorems": ["Verif.Props.C63_only_controllers", "Verif.Props.C63_no_handler"], "note": ""},
  {"property": "C64", "status": "proved", "theorems": ["Verif.Props.C64_order", "Verif.Props.C64_written"], "note": ""},
  {"property": "C65", "status": "proved", "theorems": ["Verif.Props.C65_silent"], "note": ""},
  {"property": "C66", "status": "partial", "theorems": ["Verif.Props.C66_blocked", "Verif.Props.C66_false", "Verif.Props.C66_partial", "Verif.Props.C66_terminates", "Verif.Props.C66_orderly", "Verif.Props.C66_needed", "Verif.Props.C66_exact"], "note": "False as stated (C66_false): when recvCh is full at the moment of Stop and recvLoop takes the shutdown case, the reader waits at its send for ever, after every continuation (C66_blocked). C66_partial: if all channels are closed, no tick is being processed, no call-back is nil and at most ten items are under way, every schedule without ticks is finite and can only end with all goroutines returned (C66_terminates). C66_orderly: when every Start waits for the goroutines of the session before (TidyReach), nothing need be assumed about closed channels or about what earlier sessions left in their queues. C66_exact: after Stop, in such executions, all goroutines can return if and only if the state satisfies Settles, four inequalities between what the goroutines must still put into each queue and the room there is (a recvLoop, pollLoop or pollReplyLoop that has not returned makes room, sendLoop makes room for one datagram); C66_needed: no schedule ends otherwise, whatever tickers fire and whoever calls SendDMXToAddress."},
  {"property": "C67", "status": "partial", "theorems": ["Verif.Props.C67_deadlock", "Verif.Props.C67_false", "Verif.Props.C67_partial", "Verif.Props.C67_needed", "Verif.Props.C67_exact", "Verif.Props.C67_waits", "Verif.Props.C67_caller"], "note": "False as stated (C67_false): when sendCh is full at the moment of Stop and sendLoop ends, the update loop waits for ever with nodeLock held, and a caller of SendDMXToAddress never returns (C67_deadlock). C67_partial: when every Start waits for the goroutines of the session before, then in every session until Stop the lock can always become free and every waiting caller can then return; after Stop with at most ten items under way see C66_orderly. C67_exact, C67_caller: after Stop, in such executions, the lock can become free, and a caller waiting for it can return, if and only if what sendCh holds and what the tick must still send is at most ten, or eleven while sendLoop has not taken its last datagram (C67_needed: no schedule otherwise); C67_waits: until then the caller stays where it is."},
  {"property": "C68", "status": "partial", "theorems": ["Verif.Props.C68_false", "Verif.Props.C68_partial", "Verif.Props.C68_exact"], "note": "False as stated: a read error while running dereferences the nil source address (C68_false). C68_partial: a read error after Stop ends the reader and changes nothing else. C68_exact: the reader that got an error panics exactly if the node is started."},
  {"property": "C69", "status": "proved", "theorems": ["Verif.Props.C69_isolated", "Verif.Props.C69_accepted_fixed"], "note": ""},
  {"property": "C70", "status": "proved", "theorems": ["Verif.Props.C70_capacity"], "note": ""},
  {"property": "C71", "status": "partial", "theorems": ["Verif.Props.C71_exact", "Verif.Props.C71_false", "Verif.Props.C71_partial"], "note": "False as stated: the option does not reach the embedded node, whose ArtPollReply goes to the default address (C71_false). C71_partial covers the ArtPoll. C71_exact: it holds of the default address and of no other."},
  {"property": "C72", "status": "partial", "theorems": ["Verif.Props.C72_nothing_routed", "Verif.Props.C72_false", "Verif.Props.C72_partial", "Verif.Props.C72_until", "Verif.Props.C72_exact"], "note": "False as stated: Start empties the routing tables but keeps Nodes (C72_false, C72_nothing_routed). C72_partial: the next tracked reply of a node restores its routing. C72_until: after a restart a universe is unrouted until a node that lists it replies. C72_exact: holds exactly for histories after which the known nodes claim no universe."},
  {"property": "C73", "status": "proved", "theorems": ["Verif.Props.C73_linearizable", "Verif.Props.C73_calls", "Verif.Props.C73_tables", "Verif.Props.C73_sequence"], "note": ""},
  {"property": "C74", "status": "partial", "theorems": ["Verif.Props.C74_exact", "Verif.Props.C74_false", "Verif.Props.C74_partial"], "note": "False as stated: a controller whose first Start could not listen keeps returning that error from every later Start although it is running (C74_false). C74_partial: correct for a Node, and for a Controller for which listening never failed. C74_exact: exactly the Nodes and the systems that cannot be started have the property."},
  {"property": "C75", "status": "proved", "theorems": ["Verif.Props.C75_panics", "Verif.Props.C75_exact", "Verif.Props.C75_registered"], "note": ""},
  {"property": "C76", "status": "proved", "theorems": ["Verif.Props.C76_nothing_invented", "Verif.Props.C76_wire"], "note": ""},
  {"property": "C77", "status": "partial", "theorems": ["Verif.Props.C77_leak", "Verif.Props.C77_false", "Verif.Props.C77_partial", "Verif.Props.C77_first", "Verif.Props.C77_exact"], "note": "False as stated (C77_false): a Node with style StController that does not belong to a Controller has no receiver for pollReplyCh; from the eleventh ArtPollReply on every handler goroutine waits for ever (C77_leak). C77_partial: for every Controller and for every Node of another style every goroutine can always go on, in every session that starts after the goroutines of the one before have returned. C77_exact: a system has the property exactly when it is a Controller, has another style, or cannot be started."},
  {"property": "C78", "status": "partial", "theorems": ["Verif.Props.C78_exact", "Verif.Props.C78_callbacks", "Verif.Props.C78_restart", "Verif.Props.C78_false", "Verif.Props.C78_partial"], "note": "False as stated (C78_false): after Stop has returned a handler goroutine may still be about to read the map of call-backs, which RegisterCallback then writes (C78_callbacks); a Start directly after Stop assigns the channel fields that the old loops read (C78_restart). C78_partial: there is no race if these functions are called only when they are refused or all goroutines of earlier sessions have returned. C78_exact: of the single systems only the Nodes that cannot be started have the property."},
  {"property": "C79", "status": "partial", "theorems": ["Verif.Props.C79_false", "Verif.Props.C79_bound", "Verif.Props.C79_partial", "Verif.Props.C79_exact"], "note": "False (C79_false): the period is time.Second divided by the rate, rounded down, so at 3 fps 4 datagrams fit into one second. C79_bound gives the exact limit for every rate ((n-1)*period < 1 s); C79_partial proves the stated limit for rates that divide 10^9 (for instance 1, 2, 4, 5, 8, 10, 20, 25, 40, 50). C79_exact: the stated limit holds in every history exactly for the rates that divide 10^9."},
  {"property": "C80", "status": "partial", "theorems": ["Verif.Props.C80_false", "Verif.Props.C80_partial", "Verif.Props.C80_exact"], "note": "False for styles that are not declared (C80_false: style 7, which the encoder writes and the decoder rejects); C80_partial proves it for every declared style. C80_exact: a datagram on the wire is rejected exactly if it is the announcement of an undeclared style."},
  {"property": "C81", "status": "partial", "theorems": ["Verif.Props.C81_partial", "Verif.Props.C81_false", "Verif.Props.C81_exact"], "note": "False (C81_false): all ports are announced at the base address of the node, so a port elsewhere is never reached. C81_partial proves it for ports at the base address. C81_exact: the light is reached exactly if the port is at the base address."},
  {"property": "C82", "status": "proved", "theorems": ["Verif.Props.C82_keep_alive_interval"], "note": ""},
  {"property": "C83", "status": "partial", "theorems": ["Verif.Props.C83_false", "Verif.Props.C83_panics", "Verif.Props.C83_partial"], "note": "False (C83_false): an error is returned always. Worse, C83_panics: if the node is not the last one in the list, the function panics with an index out of range. C83_partial: an unknown address changes nothing; the last node is removed with the routes of the universes it claims and the others stay."},
  {"property": "C84", "status": "proved", "theorems": ["Verif.Props.C84_newNode", "Verif.Props.C84_newController", "Verif.Props.C84_later"], "note": ""},
  {"property": "C85", "status": "proved", "theorems": ["Verif.Props.C85_forward_bytes", "Verif.Props.C85_forward_identity"], "note": ""},
  {"property": "C86", "status": "proved", "theorems": ["Verif.Props.C86_encoding_injective"], "note": ""},
  {"property": "C87", "status": "partial", "theorems": ["Verif.Props.C87_exact", "Verif.Props.C87_false", "Verif.Props.C87_partial", "Verif.Props.C87_first"], "note": "False as stated (C87_false): after Stop and Start in quick succession the old sendLoop goes on beside the new one, and a datagram can overtake another. C87_partial: when every Start waits for the goroutines of the session before, the order is kept over all sessions; in the first session always (C87_first). C87_exact: exactly the Nodes and the systems that cannot be started have the property."},
  {"property": "C88", "status": "partial", "theorems": ["Verif.Props.C88_false", "Verif.Props.C88_partial", "Verif.Props.C88_call_returns", "Verif.Props.C88_exact"], "note": "False for a Node with style StController (C88_false): nothing receives from its pollReplyCh, and the eleventh handler waits for ever. C88_partial: for Controllers, and for Nodes of any other style, each goroutine that does not rest stays where it is until it does its step, and does it. C88_call_returns: SendDMXToAddress returns in any case. The fairness assumed (Spec/Fair.lean) is that what a goroutine can do again and again it does again and again; nothing is assumed about tickers or the network. fair_exists: executions of this kind exist. C88_exact: a system has the property exactly when it is a Controller, has another style, or cannot be started."},
  {"property": "C89", "status": "proved", "theorems": ["Verif.Props.C89_handled", "Verif.Props.C89_arrivals", "Verif.Props.C89_called"], "note": ""},
  {"property": "C90", "status": "proved", "theorems": ["Verif.Props.C90_taken", "Verif.Props.C90_written"], "note": ""},
  {"property": "C91", "status": "proved", "theorems": ["Verif.Props.C91_replies", "Verif.Props.C91_answered"], "note": ""},
  {"property": "C92", "status": "proved", "theorems": ["Verif.Props.C92_processed", "Verif.Props.C92_arrivals"], "note": ""},
  {"property": "C93", "status": "proved", "theorems": ["Verif.Props.C93_ticked"], "note": "C93_ticked: after the ticker fires there is a moment m at which dmxUpdateLoop takes nodeLock; the datagrams of a sequential tick in the state of that moment are a subsequence of what is written after m."},
  {"property": "C94", "status": "proved", "theorems": ["Verif.Props.C94_followed"], "note": "C94_followed composes linearizability (C73), the sequential tick (C48), and the fairness results (C88, C90). The buffer hypothesis is C54's: without a buffer the call is lost (C54_false)."},
  {"property": "C95", "status": "proved", "theorems": ["Verif.Props.C95_example_address", "Verif.Props.C95_announces_zero"], "note": "C95_announces_zero is a consequence that is hardly intended: the fallback is the last address, and an IPv6 one is announced as 0.0.0.0."},
  {"property": "C96", "status": "partial", "theorems": ["Verif.Props.C96_false", "Verif.Props.C96_own_echo", "Verif.Props.C96_partial", "Verif.Props.C96_replies", "Verif.Props.C96_exact"], "note": "False: the type assertion fails for every packet of another kind (C96_false), even for the echo of the program's own ArtPoll, which overwrites the shared buffer (C96_own_echo). Proved: the exact condition when nothing is read between a communication and its parse (C96_partial), and no panic at all if every datagram starts with the header of an announcement (C96_replies); and for every execution the exact condition: it panics when and only when a parse finds another packet in the buffer as all datagrams read so far have left it (C96_exact)."},
  {"property": "C97", "status": "partial", "theorems": ["Verif.Props.C97_false", "Verif.Props.C97_handed", "Verif.Props.C97_partial", "Verif.Props.C97_exact", "Verif.Props.C97_same_length", "Verif.Props.C97_mixture"], "note": "False: a datagram that is read before the previous one is parsed replaces it (C97_false). Proved: the datagrams are handed over unchanged, in order, once each, whatever the schedule (C97_handed), and the statement holds if nothing is read between a communication and its parse (C97_partial); for every execution what is printed is exactly what the parses find in the overwritten buffer (C97_exact); with datagrams of one length each is some host's announcement (C97_same_length), in general it can be a mixture that nobody announced (C97_mixture)."},
  {"property": "C98", "status": "proved", "theorems": ["Verif.Props.C98_examples_understood"], "note": ""},
  {"property": "C99", "status": "proved", "theorems": ["Verif.Props.C99_sent_by_a_host"], "note": "Composition of the single-host model of Model/Conc.lean; the network is the relation in Model/Net.lean."},
  {"property": "C100", "status": "proved", "theorems": ["Verif.Props.C100_understood"], "note": "The style hypothesis is needed: an announcement with style 7 or above is rejected by the decoder (C80_false)."},
  {"property": "C101", "status": "proved", "theorems": ["Verif.Props.C101_light", "Verif.Props.C101_own_universe"], "note": "The universe is the base address rather than the port's address because discovery loses port addresses (C35_partial)."},
  {"property": "C102", "status": "proved", "theorems": ["Verif.Props.C102_tables"], "note": ""},
  {"property": "C103", "status": "proved", "theorems": ["Verif.Props.C103_no_storm"], "note": "The hypothesis is needed: the library does not recognise duplicates."},
  {"property": "C104", "status": "proved", "theorems": ["Verif.Props.C104_discovered", "Verif.Props.C104_lossy"], "note": "The controller may forget the node again later, when replies stop arriving. The hypotheses on the network are Reliable and FairLossy (Spec/NetFair.lean)."},
  {"property": "C105", "status": "proved", "theorems": ["Verif.Props.C105_light_follows"], "note": "C94 carried through the network and the other host."},
  {"property": "C106", "status": "proved", "theorems": ["Verif.Props.C106_listens"], "note": "Whether a datagram that arrives between two reads is kept is up to the socket buffer of the operating system, which is not modelled."},
  {"property": "C107", "status": "proved", "theorems": ["Verif.Props.C107_goes_on", "Verif.Props.C107_known"], "note": "The frame rate of a controller has to be between 1 and 10^9, otherwise dmxUpdateLoop panics, and no call-back may be nil (C75). The execution is made by a scheduler that serves a queue of everything that may have to be done (Lemmas/Sched.lean, Lemmas/NetSched.lean)."},
  {"property": "C108", "status": "partial", "theorems": ["Verif.Props.C108_exact", "Verif.Props.C108_emitted", "Verif.Props.C108_false", "Verif.Props.C108_partial", "Verif.Props.C108_first"], "note": "False if Start is called before the sendLoop of the session before has returned: the two sendLoops overtake each other (C108_false). Proved: inside the controller the order holds under every schedule (C108_emitted), and on the wire if every Start waits for the old goroutines (C108_partial), in particular in the first session (C108_first). C108_exact: the systems that have the property are exactly those that cannot light a lamp."},
  {"property": "C109", "status": "partial", "theorems": ["Verif.Props.C109_flood", "Verif.Props.C109_exact", "Verif.Props.C109_false", "Verif.Props.C109_partial", "Verif.Props.C109_sessions"], "note": "False: recvLoop begins a goroutine for every packet it can parse, and for every system that can be started and every n there is a session with n of them alive (C109_flood); the property holds exactly for the systems that cannot be started (C109_exact, C109_false). Proved: at most four loops, six for a controller, if every Start waits for the old goroutines, and never more goroutines begun for packets than payloads accepted (C109_partial); without the assumption at most that many loops for each successful listen (C109_sessions)."},
  {"property": "C110", "status": "partial", "theorems": ["Verif.Props.C110_false", "Verif.Props.C110_partial", "Verif.Props.C110_exact"], "note": "False for too many output ports: the message prints the number of input ports (config.go:135, C110_false). Proved for every other error, together with when each error is returned (C110_partial). C110_exact: when the error describes what is wrong."},
  {"property": "C111", "status": "partial", "theorems": ["Verif.Props.C111_partial", "Verif.Props.C111_false", "Verif.Props.C111_exact"], "note": "False for a name of 18 bytes or a text of 64 (C111_false). Proved: the exact contents of the three fields, and that a field is terminated exactly if the text is shorter than it or has a zero byte itself (C111_partial). C111_exact: the texts for which the fields end with a zero byte."},
  {"property": "C112", "status": "partial", "theorems": ["Verif.Props.C112_false", "Verif.Props.C112_partial", "Verif.Props.C112_exact"], "note": "False after Stop, when the closed connection is returned (C112_false). Proved: nil exactly before the first successful listen, else the newest connection, which is open while a session is on and closed when Stop has returned (C112_partial). C112_exact: of the single systems only those that cannot be started have the property."},
  {"property": "C113", "status": "proved", "theorems": ["Verif.Props.C113_port", "Verif.Props.C113_tidy"], "note": "Whether two sockets can listen to the same port is up to the operating system, so it is a hypothesis of C113_port; C113_tidy does without."},
  {"property": "C114", "status": "partial", "theorems": ["Verif.Props.C114_false", "Verif.Props.C114_partial", "Verif.Props.C114_refines", "Verif.Props.C114_exact"], "note": "False (C114_false): a Start that runs between the first two statements of Stop leaves a node whose flag says it runs and whose connection is open while the channel its loops watch is closed. C114_partial: it holds when no call is made before the earlier ones have returned. C114_refines: then the calls leave the fields as those of the model with one caller do. C114_exact: of the single systems only those that cannot be started have the property."},
  {"property": "C115", "status": "proved", "theorems": ["Verif.Props.C115_count", "Verif.Props.C115_more", "Verif.Props.C115_faults"], "note": "Proved for the model with any number of callers (Model/Callers.lean)."},
  {"property": "C116", "status": "partial", "theorems": ["Verif.Props.C116_false", "Verif.Props.C116_forever", "Verif.Props.C116_partial", "Verif.Props.C116_returns", "Verif.Props.C116_exact"], "note": "False (C116_false): a Start that replaces shutdownCh of the node between close and the wait in Controller.Stop makes that Stop wait on an open channel; C116_forever: it then waits for ever unless Stop is called again. C116_partial and C116_returns: it holds for a Node in every interleaving, and for a Controller when the calls do not overlap. C116_exact: exactly the Nodes and the systems that cannot be started have the property."},
  {"property": "C117", "status": "partial", "theorems": ["Verif.Props.C117_false", "Verif.Props.C117_race", "Verif.Props.C117_partial", "Verif.Props.C117_exact", "Verif.Props.C117_late"], "note": "False (C117_false): RegisterCallback tests the flag and writes later without the lock, so a Start in between lets it write while the loops read the map; C117_race: two calls write at once. C117_partial: it holds when the calls do not overlap. C117_exact: no system has the property; C117_late: every system that can be started also has the first kind of race."},
  {"property": "C118", "status": "proved", "theorems": ["Verif.Props.C118_outcome"], "note": "Proved: one equation between Unmarshal and the table Spec/Outcome.lean, which is written from byte offsets only."},
  {"property": "C119", "status": "partial", "theorems": ["Verif.Props.C119_false", "Verif.Props.C119_partial", "Verif.Props.C119_bounded"], "note": "False (C119_false): the entries of a Controller made before its first Start have no type. C119_partial: it holds for nodes always and for a Controller from the first Start on; C119_bounded: restarting adds at most one field to those of the user."},
  {"property": "C120", "status": "partial", "theorems": ["Verif.Props.C120_partial", "Verif.Props.C120_steady", "Verif.Props.C120_bounded", "Verif.Props.C120_false", "Verif.Props.C120_exact"], "note": "False (C120_false): a node that moves to another universe keeps the buffer of the old one. C120_partial: a node has buffers only for universes it claimed at some time; C120_steady: one that always claims the same universes has buffers only for those; C120_bounded: never more than 65536, one per universe. C120_exact: the histories for which it holds."},
  {"property": "C121", "status": "partial", "theorems": ["Verif.Props.C121_kept", "Verif.Props.C121_partial", "Verif.Props.C121_false", "Verif.Props.C121_exact"], "note": "False (C121_false): a node that gives up a universe and takes it back is sent the data of before. C121_partial: it holds when SendDMXToAddress was not called for the universe before; C121_kept: what is sent is what the node object held for the universe. C121_exact: it is dark if and only if the last call that reached the node set zeros, or none did."},
  {"property": "C122", "status": "partial", "theorems": ["Verif.Props.C122_exact", "Verif.Props.C122_false", "Verif.Props.C122_partial", "Verif.Props.C122_unambiguous"], "note": "False (C122_false): Status1 prints \"unknown\" for the authority \"net\", because the getters mask the wrong bits. C122_partial: it holds for every other register and for the flags of Status1; C122_unambiguous: the part about pairs holds for the six registers of flags. C122_exact: the values of Status1 that are printed as documented."},
  {"property": "C123", "status": "proved", "theorems": ["Verif.Props.C123_values", "Verif.Props.C123_declared"], "note": "Proved for all declared constants."},
  {"property": "C124", "status": "partial", "theorems": ["Verif.Props.C124_false", "Verif.Props.C124_partial", "Verif.Props.C124_started", "Verif.Props.C124_line", "Verif.Props.C124_exact"], "note": "False (C124_false): recvLoop starts a goroutine for every packet, and a later one can be faster. C124_partial: it holds when every packet's call-back is looked up before the next packet is parsed; C124_started: what waits to be handled is always in the order of arrival, and C124_line: nothing on its way is left out. C124_exact: of the single systems only those that cannot be started have the property."},
  {"property": "C125", "status": "partial", "theorems": ["Verif.Props.C125_stale", "Verif.Props.C125_false", "Verif.Props.C125_partial", "Verif.Props.C125_exact"], "note": "False (C125_false); C125_stale: a node announces universe 1 and then universe 2, and the controller ends up sending to universe 1. C125_partial: the order is kept when every announcement is put into pollReplyCh before the next packet is parsed. C125_exact: exactly the Nodes, the systems of another style than StController and those that cannot be started have the property."},
  {"property": "C126", "status": "proved", "theorems": ["Verif.Props.C126_polls", "Verif.Props.C126_announcements", "Verif.Props.C126_all_answered"], "note": "C126_polls, C126_announcements: exact balances in every reachable state (what waits in a channel of a stopped session counts as under way); C126_all_answered."},
  {"property": "C127", "status": "partial", "theorems": ["Verif.Props.C127_exact", "Verif.Props.C127_false", "Verif.Props.C127_partial"], "note": "False (C127_false): the destination is the address contained in the announcement, so one host can direct the stream to another. C127_partial: it holds if every ArtPollReply that arrives contains the address it comes from. C127_exact: the systems that have the property are exactly those that cannot light a lamp: no Controllers, of another style, with an invalid configuration or frame rate."},
  {"property": "C128", "status": "proved", "theorems": ["Verif.Props.C128_bounds", "Verif.Props.C128_concurrent", "Verif.Props.C128_recent", "Verif.Props.C128_flood"], "note": "C128_bounds, C128_concurrent, C128_recent; C128_flood: every list of different addresses is the node table after one announcement each."},
  {"property": "C129", "status": "proved", "theorems": ["Verif.Props.C129_last_event", "Verif.Props.C129_heals"], "note": "C129_last_event (both directions), C129_heals."},
  {"property": "C130", "status": "proved", "theorems": ["Verif.Props.C130_amplification", "Verif.Props.C130_tight", "Verif.Props.C130_controller"], "note": "C130_amplification; C130_tight: the bound is reached; C130_controller: a controller writes without having received anything."},
  {"property": "C131", "status": "partial", "theorems": ["Verif.Props.C131_partial", "Verif.Props.C131_short", "Verif.Props.C131_false", "Verif.Props.C131_unchecked"], "note": "C131_partial: Length is not looked at; a datagram is accepted exactly if all 512 data bytes follow. C131_false: an ArtNzs with one channel is refused; C131_short: so is every correct datagram with fewer than 512 data bytes; C131_unchecked: a Length of 65535 is handed over."},
  {"property": "C132", "status": "proved", "theorems": ["Verif.Props.C132_tick", "Verif.Props.C132_traffic"], "note": "C132_traffic, C132_tick; examples where the bounds are reached."},
  {"property": "C133", "status": "partial", "theorems": ["Verif.Props.C133_partial", "Verif.Props.C133_false"], "note": "False (C133_false): nodes are forgotten after 7 s and polls are 3 s apart. C133_partial: nodes that miss up to n polls in a row and answer within d always stay known exactly if n = 0 and d is at most 4 s, or n = 1 and d is at most 1 s."},
  {"property": "C134", "status": "proved", "theorems": ["Verif.Props.C134_independent", "Verif.Props.C134_without"], "note": "C134_independent for pairs of histories; C134_without: the calls for other universes can be left out of a history."},
  {"property": "C135", "status": "proved", "theorems": ["Verif.Props.C135_order"], "note": "C135_order; the example shows that the sequence numbers do depend on the order."},
  {"property": "C136", "status": "proved", "theorems": ["Verif.Props.C136_insulated"], "note": "C136_insulated."},
  {"property": "C137", "status": "partial", "theorems": ["Verif.Props.C137_exact", "Verif.Props.C137_partial", "Verif.Props.C137_false"], "note": "C137_statement is refuted by C137_false; C137_partial is the exact outcome. C137_exact: holds exactly if all universes are on the last page."},
  {"property": "C138", "status": "partial", "theorems": ["Verif.Props.C138_partial", "Verif.Props.C138_one", "Verif.Props.C138_next", "Verif.Props.C138_rate", "Verif.Props.C138_refines", "Verif.Props.C138_false"], "note": "C138_false: a renamed node announces its old name. C138_partial: where everything that enters the queue comes from; C138_next, C138_rate: when changes take effect; C138_refines: the model with changes is the model without them while nothing changes."},
  {"property": "C139", "status": "proved", "theorems": ["Verif.Props.C139_no_panic"], "note": "C139_no_panic. The frame rate does matter, see C56."},
  {"property": "C140", "status": "partial", "theorems": ["Verif.Props.C140_partial", "Verif.Props.C140_false", "Verif.Props.C140_exact", "Verif.Props.C140_forgotten"], "note": "False at the default rate of 1000 (C140_false: number 1 is followed by 131). C140_partial: it holds for rates up to 163. C140_exact: exactly for these. C140_forgotten: a node that was forgotten and is found again is numbered from 1, which the receiver takes for old data."},
  {"property": "C141", "status": "partial", "theorems": ["Verif.Props.C141_exact", "Verif.Props.C141_false", "Verif.Props.C141_partial", "Verif.Props.C141_sound"], "note": "False as stated: Start of a Controller returns cNode.shutdownErr, which keeps the error of an earlier Start, so a Start that has begun the loops can report failure (C141_false). C141_partial: it holds of a Node in every interleaving, and of a Controller as long as no call of net.ListenPacket has failed. C141_sound: in no state has Start returned nil without having begun the loops. C141_exact: exactly the Nodes and the systems that cannot be started have the property."},
  {"property": "C142", "status": "partial", "theorems": ["Verif.Props.C142_exact", "Verif.Props.C142_false", "Verif.Props.C142_writers", "Verif.Props.C142_readonly", "Verif.Props.C142_partial", "Verif.Props.C142_start"], "note": "False as stated: Controller.Start assigns the tables without nodeLock, and an update loop of the session before can still be in the middle of a tick (C142_false). C142_partial: nobody but Start does, and Start does not when it waits for the goroutines of the session before. C142_start: what Start changes. C142_writers: only the goroutine that holds the lock or finds it free changes the tables. C142_readonly: no goroutine assigns a field that goroutines read without a lock. C142_exact: the systems that have the property are exactly those that cannot light a lamp."},
  {"property": "C143", "status": "proved", "theorems": ["Verif.Props.C143_exactly", "Verif.Props.C143_form", "Verif.Props.C143_written"], "note": "C143_exactly: counting over any list of actions. C143_form: bytes and destination. C143_written: under fairness."},
  {"property": "C144", "status": "proved", "theorems": ["Verif.Props.C144_collected", "Verif.Props.C144_forgotten"], "note": "C144_collected: the pass takes place. C144_forgotten: its effect, through C45 and the linearization of C73."},
  {"property": "C145", "status": "proved", "theorems": ["Verif.Props.C145_alike", "Verif.Props.C145_observed", "Verif.Props.C145_silent"], "note": "C145_alike: equality of the executions. C145_observed: what can be seen from outside. C145_silent: without announcements nothing tells the systems apart."},
  {"property": "C146", "status": "proved", "theorems": ["Verif.Props.C146_traffic", "Verif.Props.C146_error", "Verif.Props.C146_nodes", "Verif.Props.C146_calls", "Verif.Props.C146_never", "Verif.Props.C146_starts"], "note": "C146_traffic: datagrams and packets. C146_error: the decoding error. C146_nodes: the table of nodes. C146_calls: SendDMXToAddress. C146_never: the update loop. C146_starts: Start."},
  {"property": "C147", "status": "proved", "theorems": ["Verif.Props.C147_refines", "Verif.Props.C147_lifts", "Verif.Props.C147_sent", "Verif.Props.C147_stopped", "Verif.Props.C147_discarded"], "note": "C147_refines: nothing new. C147_lifts: the converse. C147_sent: ticks are not invented. C147_stopped, C147_discarded: after Stop."},
  {"property": "C148", "status": "partial", "theorems": ["Verif.Props.C148_false", "Verif.Props.C148_exact", "Verif.Props.C148_partial"], "note": "False: the ticker of dmxUpdateLoop is never stopped (C148_false). C148_exact: the poll and gc tickers are all stopped exactly when every successful Start is followed by Stop before the next successful Start; tickers of dmxUpdateLoop never. C148_partial: the consequence for orderly callers."},
  {"property": "C149", "status": "proved", "theorems": ["Verif.Props.C149_polls", "Verif.Props.C149_frames", "Verif.Props.C149_window"], "note": "C149_polls: ArtPolls. C149_frames: ArtDMX per universe. C149_window: any stretch. Both first bounds are reached in the examples."},
  {"property": "C150", "status": "partial", "theorems": ["Verif.Props.C150_false", "Verif.Props.C150_partial", "Verif.Props.C150_goroutines", "Verif.Props.C150_nodes", "Verif.Props.C150_exact"], "note": "False: that the goroutines have returned orders nothing, so a Start after it races with the reads of the last session (C150_false). C150_exact: true only of a Node that cannot be started. C150_partial: no data race in the calls of one session, with any schedule and any callers of SendDMXToAddress. C150_goroutines: without any assumption, every data race involves a life cycle call. C150_nodes: without any assumption, all accesses to Nodes and the buffers are ordered."},
  {"property": "C151", "status": "proved", "theorems": ["Verif.Props.C151_refines"], "note": "C151_refines: the run with arrays always succeeds and agrees with the run of Model/Controller.lean in Nodes, all nodes, OutputAddress, InputAddress and all that is sent."},
  {"property": "C152", "status": "partial", "theorems": ["Verif.Props.C152_false", "Verif.Props.C152_partial", "Verif.Props.C152_pointers", "Verif.Props.C152_forgotten", "Verif.Props.C152_moved"], "note": "False: gcNode moves the pointers within the shared array, so a slice [A, B] becomes [B, B] when A is forgotten, and [B, C] when C appears (C152_false). C152_partial: it is unchanged as long as Nodes still lists all its nodes. C152_forgotten: otherwise, without new nodes, it lists the nodes left and then nodes of its own, the last one in the last place. C152_pointers: it never lists nil, and only nodes that have been seen. C152_moved: once Nodes is in another array the old slice never changes."},
  {"property": "C153", "status": "partial", "theorems": ["Verif.Props.C153_false", "Verif.Props.C153_partial", "Verif.Props.C153_send", "Verif.Props.C153_later"], "note": "False: nodeLock is not exported, and nothing else orders a reader: reading Nodes after all goroutines have returned is a data race with the addition of a node (C153_false). C153_partial: what is read before Start is in no data race. C153_send: the caller of SendDMXToAddress comes after all that has been written so far, so its reading is in no data race with that; C153_later: but it is with what is written afterwards."},
  {"property": "C154", "status": "partial", "theorems": ["Verif.Props.C154_false", "Verif.Props.C154_partial", "Verif.Props.C154_during", "Verif.Props.C154_ends", "Verif.Props.C154_whole"], "note": "False: Controller.Start makes the two maps anew without nodeLock; called in the middle of updateNode it leaves the references of the input ports without those of the output ports (C154_false). C154_partial: if Start is not called while a section is going on, the state is that of the execution in which every section is done in one step when it unlocks. C154_during: while a section is going on everything but the lock and the tables is as with whole sections; C154_ends: a section can go on to its end; C154_whole: the executions with whole sections are among those in small steps."},
  {"property": "C155", "status": "proved", "theorems": ["Verif.Props.C155_last_call", "Verif.Props.C155_wire", "Verif.Props.C155_after_tick"], "note": "C155_last_call for histories, C155_wire for every schedule; C155_after_tick: a routed universe is reached by every call after the first tick that finds it routed."},
  {"property": "C156", "status": "partial", "theorems": ["Verif.Props.C156_false", "Verif.Props.C156_partial", "Verif.Props.C156_model", "Verif.Props.C156_steady", "Verif.Props.C156_epoch", "Verif.Props.C156_rate"], "note": "False: outside 1885-2157 a time.Time has no monotonic reading, so that a clock set back by an hour stops the light for an hour (C156_false). C156_partial: it holds while the wall clock is between 1885 and 2157. C156_model: Model/Controller.lean, with one number for a time, is then exact; C156_steady: also outside, if the clock is never set; C156_epoch: the number from which it counts does not matter; C156_rate: the arithmetic with the frame rate does not overflow in 64 bits."},
  {"property": "C157", "status": "partial", "theorems": ["Verif.Props.C157_false", "Verif.Props.C157_partial", "Verif.Props.C157_once", "Verif.Props.C157_running", "Verif.Props.C157_received", "Verif.Props.C157_arrived"], "note": "False: a datagram that sendLoop has taken when Stop is called is neither written nor logged (C157_false). C157_partial: the exact account at every moment: queued = entries 'sent' + entries of failed writes + in the hand of sendLoop + waiting + given up. C157_once: at most one is given up for each successful Start, and only by a sendLoop that ends; C157_running: none before Stop is called. C157_received: the entries about received datagrams are those that did not decode, those without call-back, the calls and those on their way; C157_arrived: arrivals from other hosts are the entries about them, those being looked at and those read while the Node was stopped."}
]}
