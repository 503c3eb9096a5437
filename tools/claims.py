c("C01","proved","C01_verify_exact C01_verify_rfc1071")
c("C02","partial","C02_generate_wrong_witness C02_generate_unverifiable_witness C02_generate_partial C02_generate_20_bytes_partial C02_store_verifies_partial C02_icmp4_partial C02_icmp6_partial C02_udp4_partial C02_udp6_partial C02_tcp4_partial C02_tcp6_partial","Property is false of the code (lost carry); witnesses plus the exact condition under which it holds.")
c("C03","proved","C03_byte_corruption_detected C03_bit_flip_detected")
c("C04","proved","C04_mac_int C04_mac_bytes C04_mac_text C04_mac_str","Text: exactly six pairs of hexadecimal digits with : or -, blanks around allowed.")
c("C05","proved","C05_ip4_int C05_ip4_bytes C05_ip4_text C05_lenient_witness","C05_lenient_witness records other texts that are accepted (octal, trailing text).")
c("C06","proved","C06_ip6_int C06_ip6_bytes C06_ip6_text")
c("C07","proved","C07_mac_classes C07_mac_classes_disjoint")
c("C08","partial","C08_ip4_classes_partial C08_reserved_wrong_witness C08_reserved_partial C08_unicast_partial","False for the reserved class; witness and the exact set the code computes.")
c("C09","proved","C09_ip6_classes")
c("C10","proved","C10_ip4_mask C10_ip6_mask")
c("C11","proved","C11_ip4_membership C11_ip6_membership C11_network_of_address C11_network_of_address6")
c("C12","proved","C12_ip4_gateway C12_ip4_gateway_accepts C12_ip6_gateway C12_unchecked_network_witness","the (address, network) constructor is unchecked, see the witness")
c("C13","proved","C13_ip4_multicast_mac C13_ip6_multicast_mac C13_solicited_node C13_eui64 C13_eui64_injective")

c("C14","proved","C14_ether_roundtrip C14_ether_accepted","")
c("C15","proved","C15_arp_roundtrip C15_arp_accepted","")
c("C16","partial","C16_ip4_roundtrip C16_ip4_frag_roundtrip C16_options_checksum_witness","Headers without options: proved in full. With options the property is false for some headers (checksum generation loses a carry, witness); proved for every header whose written checksum verifies. Options after the first end-of-list byte are not returned by the parser.")
c("C17","partial","C17_ip6_roundtrip_partial C17_ip6_roundtrip_dscp0_partial C17_dscp_lost_witness C17_ip6_frag_roundtrip","False of the code for DSCP (witness: every non-zero DSCP is changed) and flow labels above 20 bits; the exact values that come back are proved, and the full round trip for DSCP 0.")
c("C18","proved","C18_udp_roundtrip C18_udp_accepted","")
c("C20","partial","C20_icmp4_roundtrip C20_short_unreachable_witness","Accepted back iff the written checksum verifies (C02); unreachable messages quoting under 4 bytes are not accepted back (witness).")
c("C21","partial","C21_icmp6_roundtrip_partial C21_pi_r_flag_witness C21_rs_options_witness C21_mld2_one_record C21_mld2_two_records","All message types and options except: the R flag of a prefix option and router solicitations with options (false, witnesses); reading back several MLDv2 records (false, witness theorem; one record proved).")
c("C25","partial","C25_icmp6_raises_only_partial C25_icmp6_read_partial C25_icmp6_stray_byte_witness C25_icmp6_short_prefix_witness C25_icmp6_long_prefix_witness C25_icmp6_hang_witness","False of the code (witnesses); proved that these patterns are the only ways the parser can raise or hang.")
c("C22","proved","C22_ether_total C22_arp_total C22_udp_total C22_icmp4_total C22_ip6_total C22_ip6_frag_total","")
c("C23","partial","C23_ip4_raises_witness C23_ip4_total_partial","False of the code (witness); proved that the witness pattern is the only way it can raise.")
c("C26","partial","C26_ip4_accepted_partial C26_ip6_accepted C26_ip4_ttl_zero_witness C26_ip4_reserved_witness","IPv6 in full. IPv4: false for zero TTL and odd reserved sources (witnesses), the rest proved.")
c("C19","proved","C19_tcp_roundtrip C19_tcp_option_values","Accepted back whenever the written checksum verifies (C02).")
c("C24","partial","C24_short_segment_witness C24_short_segments C24_trailing_kind_witness C24_short_option_witness C24_tcp_total_partial","False of the code (witnesses); proved that these are the only ways the parser can raise.")
c("C74","proved","C74_tcp_accepted","")
c("C33","proved","C33_ip4_source_owned C33_ip4_source_choice C33_ip4_unspecified_destination","")
c("C34","proved","C34_ip6_source_owned C34_ip6_source_choice","")
c("C35","proved","C35_ip4_next_hop C35_ip6_next_hop C35_ether","")
c("C27","proved","C27_ip4_fragmentation C27_ip4_fragmentation_succeeds","")
c("C28","proved","C28_ip6_fragmentation C28_ip6_fragmentation_succeeds","The fragments carry the default hop limit 64 whatever the request said; stated in the theorem.")
c("C69","proved","C69_ip4_status C69_ip6_status","An IPv6 send from the unspecified address has all fragments refused and reports 'unknown'; stated in the theorem.")
c("C70","partial","C70_ip4_sendto_partial C70_ip4_send_partial C70_ip6_sendto_partial C70_ip6_send_partial C70_delivered C70_delivered_once C70_recvfrom C70_checksum_witness C70_too_long_witness","For every schedule of arrivals (reordering, duplication, other traffic) and every socket history at the receiver: each arrival that completes the datagram delivers it to the most specific socket with payload, address and port as sent, none of the others does.  The full claim is false of the code: a datagram whose checksum does not verify (lost carry, C02) is dropped, and IPv4 payloads of 65508 to 65527 bytes are sent but raise an exception in the receiver; both have witnesses.")
c("C71","partial","C71_exhausted_witness","False of the code: characterised exactly, for every sequence of sends.")
c("C72","proved","C72_pick_local_ip4 C72_pick_local_ip6","")
c("C29","proved","C29_ip4_reassembly C29_ip4_any_order","For non-empty datagrams of at most 65515 bytes; the flow key has no protocol, as in the code.")
c("C30","proved","C30_ip6_reassembly","For non-empty datagrams of at most 65535 bytes.")
c("C31","partial","C31_ip4_raises_only_partial C31_ip6_raises_only_partial Example.C31_overlap_witness C31_oversize_witness","False of the code (witnesses). Proved: it raises only if fragments of one datagram overlap or end too far.")
c("C32","partial","C32_never_expires_witness Example.C32_stale_witness","False of the code: the age test has its operands swapped. Proved: with a monotone clock nothing is ever forgotten.")
c("C40","proved","C40_arp_lookup C40_arp_refresh C40_arp_pass C40_arp_request","Visits of the maintenance thread to one entry are atomic; Example.C40_race_witness shows what happens otherwise.")
c("C41","proved","C41_nd_lookup C41_nd_refresh C41_nd_pass C41_nd_source","As C40.")
c("C42","proved","C42_timer C42_unregistered","Timeouts of 0 and below are covered and behave as the theorem says.")
c("C43","proved","C43_task C43_nonpositive","")
c("C44","proved","C44_rx_ring C44_tx_ring C44_tx_ring_order C44_tx_ring_drains","")
c("C73","proved","C73_tracker C73_digits C73_text","")
c("C45","proved","C45_automatic_port C45_fails_only_when_full","Any choice of set.pop() among the free ports.")
c("C46","proved","C46_exclusive_bind_close C46_exclusive C46_bind_iff C46_bind_effect C46_use_after_close_witness","C46_exclusive extends it to all socket calls, for histories that do not use a closed socket again; the witness shows that this is needed.")
c("C48","proved","C48_recvfrom_fifo C48_recv_fifo C48_no_more_than_delivered","Calls are atomic.")
c("C49","proved","C49_recv_refused_iff C49_send_refused_iff C49_once C49_never_without","Besides ICMP messages, the code takes sending or connecting to the unspecified address as a notification (Spec.Marks).")

c("C36","proved","C36_foreign_mac C36_foreign_ip4 C36_foreign_ip6","Stated on the bytes of the frame (destination fields at their offsets).  In the IPv4 case the parser may raise instead (C23); even then nothing is sent, learnt or delivered.")
c("C37","partial","C37_arp C37_only_arp C37_reply_on_wire C37_zero_sender_witness","Exact effects of every accepted ARP packet, nothing else touches ARP state, and the reply frame decodes with swapped addresses.  Partial: the reply to a request whose sender MAC is zero is dropped on the transmit side (witness).")
c("C38","proved","C38_wire_solicitation C38_wire_advertisement C38_wire_only C38_solicitation C38_advertisement C38_only","The wire theorems speak of the bytes of the frame. Exact effects of accepted solicitations and advertisements, and that no other frame sends advertisements or teaches the cache.")
c("C39","proved","C39_wire4 C39_wire6 C39_wire4_only C39_wire6_only C39_echo4 C39_echo6 C39_only","The wire theorems speak of the bytes of the frame and of the reply. Exactly one reply for each accepted unfragmented request; converse for every frame, reassembled packets included.")
c("C47","proved","C47_wire C47_delivery C47_invalid C80_udp","C47_wire speaks of the bytes of the frame. After any history of socket calls; matching stated as MostSpecific over the registered sockets.")
c("C50","proved","C50_unreachable4 C50_unreachable6 C50_sender","For any quoted bytes; never raises.")
c("C63","partial","C63_reset_partial C63_wrap_witness C63_rst_witness","The exact answer to every segment that no socket takes.  False at the sequence-number wrap (assembler assertion) and for segments with RST (answered): both witnessed.")
c("C51","proved","C51_send C51_accepted_iff","Atomic send calls.")
c("C52","proved","C52_prefix C52_acked_is_buffered C52_in_order_delivered","For every history of one session and every peer stream (numbers not reduced modulo 2^32, as stated).")
c("C53","partial","C53_sent_partial C53_buffer_partial C53_early_ack","For every history in which no arriving segment acknowledges the initial sequence number itself; C53_early_ack shows that without this the property is false of the code.")
c("C54","partial","C54_journey_partial","For every history in which no arriving segment acknowledges the initial sequence number itself.")
c("C60","proved","C60_reset_plausible C60_reset_syn_sent C60_reset_honoured C60_close_wait","The wording 'in the window' is the code's test una <= ack <= max.  In TIME_WAIT resets are ignored; in CLOSE_WAIT only a RST without ACK is honoured.")
c("C75","proved","fsm_terminates","Python's recursion limit is not modelled.")
c("C56","partial","C56_bounded_partial C56_spacing_partial C56_silent_partial C56_never_aborts C56_never_retransmitted","The bound of four transmissions, the doubling timeouts, and the end by RST after 15 s of silence are proved where nothing but the timeout drives retransmission. The claim is false in general: repeated acknowledgements push the counter past the limit (C56_never_aborts), and an acknowledgement inside a segment leaves the rest without a timer (C56_never_retransmitted).")
c("C57","partial","C57_window_partial C57_timeout C57_syn_ack","For every history in which nothing acknowledges the initial number: each event sends at most one data segment, within the peer's MSS and within max(window, MSS).  False of the code in two cases, both witnessed: after a retransmission timeout one MSS is sent whatever the window, and the window of the SYN|ACK is scaled.")
c("C58","partial","C58_acked_partial C58_stream_partial C58_raises","For sessions that are ESTABLISHED or CLOSE_WAIT when 100 ms have passed and whose timer method does not raise; C58_raises shows that a peer that takes back window makes it raise and the acknowledgement is not sent.")
c("C61","partial","C61_accept C61_independent C61_stream C61_own_segments C61_spawn_partial C61_ignored C61_close_race",
  "accept() order and uniqueness, independence of sessions and delivery of segments to their own session are proved for every history of all sockets and sessions. Session creation is proved for SYNs with acknowledgement number 0 and no data and is false for others (C61_ignored: silently dropped); close() on the listener can hit the new connection instead (C61_close_race).")
c("C62","partial","C62_last_number C62_send_partial C62_receive C62_raises","False of the code.  Proved, for every history: with the last initial number no connection opens; nothing is sent more than 1460 bytes beyond the end of the numbers; nothing is received more than one segment beyond it.  C62_raises: the timer method raises.")
c("C59","partial","C59_eof_partial C59_data_before_fin_partial C59_race C59_no_fin","End of stream: for receive calls that are not interrupted; C59_race shows that an interrupted one makes the next return the empty string too early.  All accepted data is sent before the FIN; C59_no_fin shows that the FIN may never be sent.")
c("C55","partial","C55_unregistered C55_closed_ignores C55_closed_silent C55_connect_released_partial C55_reader_released_partial C55_connect_stuck C55_reader_stuck","Removal from the table and silence in full.  Callers are released when a connecting session is refused or times out and when an established session is closed; C55_connect_stuck and C55_reader_stuck show the cases in which the code leaves callers blocked for ever.")
c("C64","proved","C64_membership C64_startup","C64_startup extends it to every start-up, whatever is heard meanwhile.")
c("C65","partial","C65_ip6_safe C65_ip6_partial C65_ip6_spurious C65_ip4_partial C65_ip4_probes C65_ip4_conflict","IPv6: an answered candidate is never assigned, for every start-up and schedule; an unanswered one is assigned unless an earlier candidate was answered twice or late (C65_ip6_spurious shows that this is needed). IPv4: every candidate is assigned, conflicts or not (C65_ip4_conflict): the receive side notes conflicts in another set than the one start-up reads.")
c("C76","partial","C76_wire C76_wire_only C76_no_exception C76_autoconfiguration_partial C76_spurious","From the bytes of the router advertisement (prefixes of 64 bits with the autonomous flag, a link-local router) to the addresses. The router advertisements of a schedule are those the receive path makes of frames. No exception, for every schedule; the addresses, where no address was answered twice or late (C76_spurious shows that this is needed).")
c("C66","partial","C66_roundtrip_partial C66_not_ascii","For names of ASCII characters; C66_not_ascii shows that another name makes a message that cannot be parsed.  An argument that Python takes as false (mask /0, empty list or text, 0) makes no option.")
c("C67","partial","C67_enough C67_ends_partial C67_wellformed_partial C67_pad","False of the code: C67_pad shows that a PAD after any header and any well-formed options is never left.  Without a zero byte among the options parsing ends.  C67_enough: the bound on the rounds in the model is no restriction.")
c("C68","proved","C68_host C68_none C68_closed C68_left_open C68_messages C68_not_matched","Exact conditions for each result.  C68_left_open and C68_not_matched record what the code does on malformed replies and on replies to other clients.")
c("C77","proved","C77_ip4_text C77_ip6_text C77_host_str C77_mask_text C77_str_to_ip C77_negative_length_witness","C77_negative_length_witness records that a negative IPv4 prefix length is read as 0.")
c("C78","proved","C78_wire C80_tcp","On the bytes of the frame, after any history of socket calls; the fields are those of RFC 9293.")
c("C79","proved","C79_connect_iff C79_connect_effect C79_sendto","For sockets the application made, after any history of socket calls, and any configuration of addresses. The start of the TCP session after registration is C55.")
c("C80","proved","C80_udp C80_tcp C80_reset C80_mixed","After any frames (the clock, addresses and sockets may change in between) and any history of socket calls. C80_mixed: the protocol is not part of what identifies a fragmented IPv4 datagram.")
c("C81","proved","C81_prefix C81_no_loss C81_sent_before_fin C81_fin_means_all","Both ends are sessions of this stack, each opened by connect or by listen; the only assumption is that the segments that arrive at one end were sent by the other or are resets (no forged data and no older connection with the same ports). Initial numbers are arbitrary; at the end of the number space a session raises (C62), so no wrap-around occurs.")
c("C82","partial","C82_join C82_last_report_partial C82_leave_silent C82_stale_report","Every join is reported, with all groups (C82_join, every history). Removals are not reported at all (C82_leave_silent), so the last report can list a group the stack has left (C82_stale_report); it is right for histories without removals (C82_last_report_partial).")
c("C83","partial","C83_ip4 C83_ip6_partial C83_ip6_fragments C83_arrives4 C83_arrives6 C83_host4 C83_host6_partial","Over IPv4 all of it, for an MTU of at least 1500 (C83_ip4), and over IPv6 for the segments that fit the MTU (C83_ip6_partial). It fails over IPv6 for full segments at the usual MTU: they are always fragmented (C83_ip6_fragments). C83_arrives4/6 say what the frame does at the other end, given that the checksum in it is right: C02 says when it may not be.")
c("C84","proved","C84_prefix C84_no_loss C84_sent_before_fin C84_fin_means_all","The second host is symmetric (Spec.Hosts.swap). Segments with the addresses and ports of the connection come from the session of the other host that has them, or are resets; all other segments are arbitrary. Each host has had one session with these addresses and ports (Spec.Only): a second one in the same host could take old segments of the first.")
c("C85","proved","C85_connects C85_delivered C85_delivered_back C85_once","Two sessions of the stack; the network keeps the order, loses nothing and delays at most d <= 400 ms; the applications send, receive and connect, but do not close; sequence numbers stay below 2^32. The timers and the timer method run every millisecond at both ends.")
c("C86","partial","C86_resent_partial C86_old_ignored C86_early_ignored C86_lost_ack","A lost segment is sent again up to three times, after 1, 2 and 4 s of silence (C86_resent_partial: the first three of the transmissions of C56). That the loss of any one segment is made good is false: a segment that was received is never acknowledged again (C86_old_ignored), so the loss of the acknowledgement ends the connection when nothing more is sent (C86_lost_ack).")
c("C87","partial","C87_same C87_truthful C87_total C87_balanced_partial C87_link C87_link_malformed C87_arp C87_ip4 C87_ip6 C87_udp C87_tcp C87_tcp_socket C87_malformed C87_malformed4 C87_malformed6 C87_icmp4 C87_uncounted C87_twice","The handlers with counters are the handlers of the other properties (C87_same). Every counter that names an action equals the number of such actions (C87_truthful, no hypotheses). The counters of each layer add up if the addresses of the stack are of one sort each and there is an IPv4 address (C87_balanced_partial); they do not otherwise: C87_uncounted (no IPv4 address yet) and C87_twice (32-bit mask). What each destination and protocol counter counts is stated on the bytes of the frame (C87_link, C87_arp, C87_ip4, C87_ip6, C87_udp, C87_tcp, and C87_tcp_socket for the counters of what a TCP segment is matched with), and so is which messages are counted as malformed: exactly those not in order in the sense of C106 and C107 (C87_malformed, C87_malformed4, C87_malformed6, C87_icmp4).")
c("C88","proved","C88_ping4 C88_ping4_unknown C88_ping6 C88_ping6_unknown C88_closed_port4 C88_closed_port6 C88_reset4 C88_reset6 C88_arp_request C88_arp_reply C88_solicitation C88_advertisement C88_sendto4 C88_sendto6 C88_sendto4_unknown C88_sendto6_unknown C88_datagram C88_refused4 C88_refused6 C88_same_icmp4 C88_same_icmp6 C88_same_udp C88_same_tcp C88_same_missing4","C88_same_*: the transmit functions of a host and those of the other properties (with the answers of the caches given) do the same. Bytes in, bytes out: each of the other theorems says which frames, as bytes, the host queues because of a frame or a call, and what it has learnt. The checksums of what it sends are the right ones or one too much (NearlyValid; C02). Resets are claimed for segments whose end does not pass sequence number 2^32 (C63 and C78 tell about the others).")
c("C89","partial","C89_resolve4 C89_resolve6_partial C89_delivered4_partial C89_delivered6_partial C89_refused4_partial C89_refused6_partial","IPv4 address resolution is proved without conditions on checksums (ARP has none). Partial because a message whose checksum came out one too much (C02) is dropped by the other host; every theorem says which message must be right.")
c("C90","proved","C90_genuine","Two whole machines (packet handler, caches, TCP sockets and sessions) with an Ethernet that carries bytes between them; UDP sockets are any. The one thing assumed about the network is that nobody else uses the peer's address as a source address (MayArrive); the machines start with no fragments waiting.")
c("C91","proved","C91_prefix C91_no_loss C91_sent_before_fin C91_fin_means_all","The same network. Sole: no other session of the machine has had these two ports and this remote address (C84, C34 and C35 tell what happens otherwise).")
c("C92","proved","C92_same C92_balanced C92_frames C92_reason C92_passed C92_truthful C92_source4 C92_source6 C92_lookup4 C92_lookup6 C92_send_means_tried","The transmit functions with counters are the transmit functions of the other properties (C92_same). The counters of each layer add up for every history of calls (C92_balanced); the frames queued are those counted as queued (C92_frames), a call that reports a drop has counted the reason it reports (C92_reason) and one that reports success has queued a frame (C92_passed). The counters of the upper layers equal the number of packets, messages, flags and options asked for (C92_truthful). When the counters for source addresses and for link-layer lookups are increased is stated on the addresses (C92_source4, C92_source6, C92_lookup4, C92_lookup6). C92_send_means_tried: a counter named send of an upper layer also counts packets that a lower layer then drops.")
c("C93","proved","C93_end_of_stream C93_acknowledged C93_closed C93_clean C93_race","Connection: two sessions over a network with delays of at most d, seen from either end (the one that connected or the one that listened), on which nobody has closed yet. Parts: what can happen after that end has closed; the other end does not send, and closes at any time after it has seen the end of the stream. C93_race: without that proviso the claim is false, because a segment that arrives in the millisecond between FIN_WAIT_1 and the sending of the FIN stops the FIN from ever being sent.")
c("C94","partial","C94_asks C94_resends C94_filled_partial C94_thrown_away","The receiver's questions (C94_asks, for every history) and the sender's answer (C94_resends, for the two ends of a connection over any network) are proved in full. That what has been kept is delivered with what was missing (C94_filled_partial) needs that the missing segment acknowledges no more than those kept; otherwise those are thrown away and must be sent again (C94_thrown_away).")
c("C95","partial","C95_accepts C95_ip4_given C95_ip4_dhcp C95_ip6_given_partial C95_ip6_auto_partial C95_listens C95_leftover_witness","Which arguments are accepted (C95_accepts), IPv4 (C95_ip4_given, C95_ip4_dhcp) and what the stack listens to when nobody contests its addresses (C95_listens) are proved in full. For IPv6 a free address is assigned for certain only if nobody answers twice, or late, to the detection of duplicates (C65_ip6_spurious shows the refusal otherwise). C95_leftover_witness: a constructor that raises is not without effect.")
c("C96","partial","C96_same C96_sequential_partial C96_sent_partial C96_received_partial C96_journey_partial C96_awake C96_connect C96_send_race","Between any two steps of a run of tcp_fsm the application's threads may do any number of steps of send, receive and connect, with any number of calls under way.  C96_sequential_partial: every such history is matched by one without thread switches with the same segments, timers and closes in the same order, in which the accepted buffers are sent one by one: same segments sent, same states, same bytes delivered, same errors.  C96_sent/received/journey_partial carry C53, C52 and C54 over.  C96_awake (no hypotheses): data in the receive buffer never waits with every receive asleep.  C96_connect (no hypotheses): connect succeeds only if the connection was established, whatever happens between its reads of the state and of the error.  Partial: no send may be under way when the application closes; C96_send_race shows the loss otherwise (accepted, never sent, though the FIN is).  Hypothesis on acknowledgements as in C53.  The countdown of timers is not split.")
c("C97","partial","C97_timer_partial C97_task_partial C97_alive_partial C97_dies C97_raises C97_lost C97_lost_timer C97_silent","The timer thread in steps, none of which touches the dict of timers or the list of tasks more than once; between any two, other threads make steps of register_timer and register_method.  C97_timer_partial: a timer of n ms expires within a round of its time.  C97_task_partial: a method runs exactly once in each round it is due in and in no other.  C97_alive_partial: the thread goes on.  Partial because the code has no lock: a timer under a new name stored while the thread goes through the timers ends the thread for ever (C97_dies: for every such moment and every continuation), so does a method that raises (C97_raises), a method registered while the list is being replaced never runs (C97_lost, likewise), a timer registered at the same kind of moment is expired at once (C97_lost_timer).  C97_silent: a connection whose method is never run never sends its SYN.")
c("C98","partial","C98_pieces C98_own_id_partial C98_genuine_partial C98_alone4 C98_alone6 C98_mixed C98_lost C98_reused","Any number of threads send packets in fragments, with thread switches between (and, for C98_pieces, inside) the accesses to the counter of identifications.  C98_pieces: what is queued are the packets, or fragments of the packets, that the calls were told to send, those of a call in order and none twice.  C98_alone4/6: a call without others in between is that of C10 and C70.  Partial because the code reads the shared counter again for each fragment: C98_own_id_partial (one identification per packet, and no other's) needs that no other call over the same IP version overlaps, C98_genuine_partial (a receiver is given only what was sent) that no two to the same address do.  C98_mixed, C98_lost, C98_reused: what happens otherwise.")
c("C99","partial","C99_recv C99_each C99_takes C99_found C99_refused C99_reaches C99_stays C99_alone_bind_partial C99_alone_connect_partial C99_alone_sendto_partial C99_both_bound C99_raises C99_gap","Any number of threads use sockets, with a thread switch possible between any two accesses to the table of sockets, the queue of a socket and its semaphore.  Receiving holds in full (C99_recv, C99_each, C99_takes: every datagram to one call, in order, no call left waiting, no IndexError), and so does what the receive thread finds (C99_found, C99_refused, C99_reaches, C99_stays).  Partial because bind, connect and sendto hold no lock: they do what they should only with no other such call, and no close, between their steps (C99_alone_*_partial); otherwise two sockets are bound to one address and port (C99_both_bound), a call raises RuntimeError (C99_raises), a datagram for a socket being connected is refused (C99_gap).")
c("C100","partial","C100_alive C100_lookup C100_asks C100_finds C100_removed_partial C100_kept C100_swept C100_round C100_lost","Lookups, additions and the maintenance thread of the ARP and neighbour caches, with a thread switch possible between any two accesses to the dict, to an entry and to the clock.  In full: the maintenance thread never ends by a KeyError, a lookup returns what was known when it looked and asks if nothing was, what was learned stays for an hour, older entries go, every round visits every entry.  Partial because removal holds no lock: C100_removed_partial needs that the address is not learned anew during the visit, and C100_kept that the removal of the previous entry is not already decided; C100_lost: otherwise the new entry is lost.")
c("C101","partial","C101_order C101_exact_partial C101_written C101_emptied_partial C101_stops C101_leaves C101_dies C101_overtakes","The TX ring with the transmit thread, or the RX ring with the packet handler's thread, with a thread switch possible between any two accesses to the list, the semaphore and the flag, and start and stop at any time.  In full: no frame is lost or taken twice (C101_order), what fits is written (C101_written), after stop every thread ends within five of its steps (C101_stops) with at most one more frame each (C101_leaves).  Partial because stop does not wait for the thread: dealing with the frames in order without exception (C101_exact_partial) and emptying the queue (C101_emptied_partial) need that no thread is started while another goes on; C101_dies, C101_overtakes: what happens otherwise.")
c("C102","partial","C102_message C102_picture C102_started C102_request C102_order C102_reply4 C102_reply6 C102_cuts4 C102_cuts6 C102_dies4 C102_dies6 C102_round_trip4_partial C102_round_trip6_partial C102_ends_witness C102_exhausted_witness C102_source_witness","The UDP echo service of the examples on a host with its sockets, address tables and caches.  In full: what is sent back, that every datagram handed to the service's socket is answered once, in order, to its sender, for all histories of frames and turns of the thread (C102_order), what one answer is on the wire (C102_reply4/6; cuts4/6 when it does not fit the MTU), and exactly which messages end the service (C102_dies4/6).  Partial because the code breaks the property: a datagram from a sender to whom the host has no way ends the service (C102_ends_witness), so does, after 65535 cut-up packets, any message whose answer needs fragments (C102_exhausted_witness), the answer may come from another address than the one asked (C102_source_witness), and the round trip needs both checksums to be right, which generation does not always ensure (C02).  What an answer that needs fragments is on the wire is covered by C98 and C70, not here; C102_dies4/6 include such answers.")
c("C103","partial","C103_reply C103_stream C103_last C103_client C103_echo C103_all_partial C103_closes C103_goes_on C103_lives C103_race_witness C103_stuck_witness C103_dies_witness","The TCP echo service of the examples on a connection whose other end is any client on this stack, with a network as in C81 and thread switches between all calls and inside receive.  In full: greeting and replies in order, each once (C103_stream), what the client gets (C103_client, C103_echo), the connection is closed after the end or one of the four words (C103_closes), no exception while the session may send (C103_lives).  Partial because the code breaks the property: C103_all_partial needs receive calls that are not interrupted (C103_race_witness: else the service says that the client has closed when it has not, and closes); after quit, close, bye or exit the thread does not end but waits for ever (C103_stuck_witness) or dies by an exception (C103_dies_witness).  Delivery times are not claimed.")
c("C104","partial","C104_detects_partial C104_gateway_partial C104_free C104_ip4_partial C104_announce C104_checksum C104_unknown_asker C104_simultaneous","Two hosts on a link, with frames.  If one has the address, then the question of the other, which is sent whatever else is heard, makes it answer, and the answer, heard in time, keeps the other from taking the address (detects, when the asker has no address with a gateway; gateway, otherwise).  Nobody claims it: it is taken (free).  Missing, and false: a question whose checksum is wrong is not answered (checksum); with a gateway the question comes from an address, without the link-layer address, and if the owner does not know it the answer is lost (unknown_asker); two hosts that ask at the same time both take the address (simultaneous); for IPv4 the conflict is noted (ip4) and the address taken all the same (C65), and the announcement that follows changes nothing at any host (announce).")
c("C105","partial","C105_threads C105_stays C105_main_lives C105_next C105_stream C105_client C105_echo C105_closes C105_all_partial C105_stopped C105_stop_witness","The service's own thread and the threads of all its connections, on a host where anything else may happen besides (other sockets and sessions, other clients, other programs) as long as only the service uses its own sockets, and a client on such another host.  Every connection that is established gets one thread, in order (threads, stays, next); the service's own thread does not die (main_lives); for every connection the theorems of C103 hold (stream, client, echo, closes, all_partial).  Missing, and false: stop() ends nothing; a client that connects afterwards is greeted and then left alone with an open connection (stopped, stop_witness).  all_partial assumes that no receive call is interrupted (C103_race_witness).")
c("C106","partial","C106_arp C106_udp4 C106_udp6 C106_icmp4 C106_icmp6_partial C106_nd_partial C106_aux_witness","Exactly which messages the ARP, UDP, ICMP and ICMPv6 parsers accept, as conditions on the bytes, with the RFC pseudo-headers.  IPv4 packets may have link-layer padding behind them.  Neighbour discovery messages with unreadable prefix options, and router solicitations from the unspecified address, are excluded (C25: the parser raises or hangs on some).  TCP segments, IP packets and frames are in C107.  False for multicast reports with auxiliary data, whose length the parser takes for bytes where RFC 3810 counts words of 4 (aux_witness).")
c("C107","partial","C107_ether C107_ip4_partial C107_ip6 C107_ip6_frag C107_tcp4_partial C107_tcp6_partial C107_options C107_walked C107_option_witness","Exactly which frames, IPv4 and IPv6 packets, fragment headers and TCP segments the parsers accept, as conditions on the bytes.  False for IPv4 and TCP options: one with a length of 1 is accepted, and one whose length is behind the header (option_witness; exactly which are accepted is Walks, and walked says how they differ from well-formed ones); and for IPv4 packets with a time to live of 0 or an odd source in 240.0.0.0/4, as in C26.")
c("C108","proved","C108_sockets C108_patterns C108_timer_names C108_timers_apart C108_others C108_leftover_witness","The names as the texts the code makes of addresses, ports and numbers.  This is what allows the other modules to know a socket by the parts of its name and a session's timers by what follows its name.  A later connection with the same addresses and ports finds what an earlier one has left (C108_leftover_witness).")
c("C109","proved","C109_equal C109_hash C109_equivalence C109_out_of_place_witness","For hosts that lie in their network, which every constructor but the one from address and network checks (C12); otherwise false (C109_out_of_place_witness).")
c("C110","partial","C110_read_partial C110_receive_partial C110_alive_partial C110_deaf_witness C110_short4_witness C110_short6_witness C110_spill_witness C110_frames_witness","False in general: a TCP segment of fewer than thirteen bytes, or one whose sequence numbers run past 2^32 - 1, ends the receive thread of any host it is addressed to (the witnesses).  Proved: which frames can (Trap, Spill: by their bytes); no other frame does, whatever the state of the host, so that the thread lives on and deals with all frames in order (alive); after one that does it deals with none (deaf_witness).  Fragments are counted among them without saying which (a reassembled packet is read again; C31 has the reassembly), and what a TCP session does with a segment it is given is left to C58 and C62.")
c("C111","partial","C111_ip6_text_partial C111_quad_witness","Exactly which texts are accepted, and for which address, for every text.  False for one form: x:x:x:x:x:x:d.d.d.d of RFC 4291 is refused by the regular expression, although inet_pton knows it (C111_quad_witness, for all such texts).")
c("C112","partial","C112_text C112_order C112_request C112_socket C112_reply4 C112_reply6 C112_dies4 C112_dies6 C112_discard C112_discard_drains C112_discard_silent C112_ends_witness","Both services on a host with its sockets, address tables and caches.  In full: the text of the time and that it determines the time (C112_text); order, addressee and time of all answers over all histories (C112_order); one answer on the wire (C112_reply4/6); exactly which messages end the daytime service (C112_dies4/6); the discard service never ends and reads everything in order (C112_discard, C112_discard_drains) and is silent over all histories (C112_discard_silent).  Partial because the code breaks the property: a datagram from a sender to whom the host has no way ends the daytime service (C112_ends_witness).  Not covered: stop() and the printing.")
c("C113","partial","C113_ip4_text_partial C113_covers C113_blank_witness C113_zero_witness","Exactly which texts are accepted, and for which address, for every text without white space, NUL and leading zeros; every text of an address is one of these (C113_covers).  Partial because the code breaks the property outside of them: whatever follows an address and a blank is ignored (C113_blank_witness, for all such texts), and numbers with leading zeros are octal (C113_zero_witness).")
c("C114","partial","C114_discard_reply C114_discard_stream C114_discard_last C114_discard_client C114_discard_silent C114_discard_all_partial C114_discard_closes C114_discard_goes_on C114_discard_lives C114_discard_race_witness C114_discard_stuck_witness C114_daytime_stream C114_daytime_count C114_daytime_says C114_daytime_closes C114_daytime_lives","Both services on a connection, with client, network and threads as in C103.  Daytime in full.  Discard in full but for what the code breaks: C114_discard_all_partial needs receive calls that are not interrupted (C114_discard_race_witness: else the service says that the client has closed when it has not, and closes); after quit, close, bye or exit the thread does not end but waits for ever (C114_discard_stuck_witness).  Not covered: the thread that accepts (C105 has it for the echo service, of the same base class), the pause between messages, the printing.")
c("C115","partial","C115_order C115_count C115_next_partial C115_all C115_wire4 C115_wire6 C115_exhausted_witness C115_default6_witness","The client on a host with its address tables and caches.  In full: numbers, identifier and data of all messages over all histories (C115_order, C115_count); the frame of a message (C115_wire4/6); a client told to send up to 65536 messages sends that many (C115_all).  Partial because the code breaks the property: after 65536 messages the thread ends with AssertionError, on every host (C115_exhausted_witness; hence C115_next_partial says nothing of the turn after the 65536th message), and without a local address no IPv6 address can be pinged (C115_default6_witness).  That a request is answered by the other host is C88.  Not covered: stop() other than as a turn that finds the flag cleared, the pause and the printing.")
c("C116","partial","C116_text C116_stream C116_count C116_says C116_complete C116_closes C116_failed C116_returns C116_lives C116_stop_witness","The thread of the client on its session, from the wait in connect on, with an arbitrary other end and network.  In full: the messages, their number and what arrives (C116_text, C116_stream, C116_count, C116_says, C116_complete), the close (C116_closes) and the failures (C116_failed, C116_lives).  Partial because the code breaks the property: stop() has no effect, as the loop does not look at the flag (C116_stop_witness).  Not covered: the choice of the socket, bind, the pause and the printing.")
c("C117","partial","C117_started C117_messages C117_next_partial C117_wire4 C117_wire6 C117_cuts4 C117_cuts6 C117_long4_witness C117_long6_witness C117_leak_witness","The client on a host with its address tables, sockets and caches, from socket() to close().  In full: the socket after the start (C117_started), the messages and the socket over all histories, and that it is closed at the end (C117_messages), the frame of a message (C117_wire4/6) or its frames when it does not fit the MTU (C117_cuts4/6).  C117_next_partial, what each turn of the loop does, also with fragments, is for messages that UDP has room for (3276 blocks) and while the stack has identifications left (C71).  Partial because the code breaks the property: a longer message makes the thread die of struct.error, its socket left open (C117_long4_witness, C117_long6_witness); when connect fails the socket is left open and its port in use, and without a local address no IPv6 address can be reached (C117_leak_witness).  That the other host gets the datagram is C89, that an ICMP message turns the socket away is C88.  Not covered: other sockets made meanwhile, the pause and the printing.")
