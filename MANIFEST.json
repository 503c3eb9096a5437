{
 "claims": [
  {
   "property": "C01",
   "status": "proved",
   "theorems": [
    "Verif.C01_verify_exact",
    "Verif.C01_verify_rfc1071"
   ],
   "note": ""
  },
  {
   "property": "C02",
   "status": "partial",
   "theorems": [
    "Verif.C02_generate_wrong_witness",
    "Verif.C02_generate_unverifiable_witness",
    "Verif.C02_generate_partial",
    "Verif.C02_generate_20_bytes_partial",
    "Verif.C02_store_verifies_partial",
    "Verif.C02_icmp4_partial",
    "Verif.C02_icmp6_partial",
    "Verif.C02_udp4_partial",
    "Verif.C02_udp6_partial",
    "Verif.C02_tcp4_partial",
    "Verif.C02_tcp6_partial"
   ],
   "note": "Property is false of the code (lost carry); witnesses plus the exact condition under which it holds."
  },
  {
   "property": "C03",
   "status": "proved",
   "theorems": [
    "Verif.C03_byte_corruption_detected",
    "Verif.C03_bit_flip_detected"
   ],
   "note": ""
  },
  {
   "property": "C04",
   "status": "proved",
   "theorems": [
    "Verif.C04_mac_int",
    "Verif.C04_mac_bytes",
    "Verif.C04_mac_text",
    "Verif.C04_mac_str"
   ],
   "note": "Text: exactly six pairs of hexadecimal digits with : or -, blanks around allowed."
  },
  {
   "property": "C05",
   "status": "proved",
   "theorems": [
    "Verif.C05_ip4_int",
    "Verif.C05_ip4_bytes",
    "Verif.C05_ip4_text",
    "Verif.C05_lenient_witness"
   ],
   "note": "C05_lenient_witness records other texts that are accepted (octal, trailing text)."
  },
  {
   "property": "C06",
   "status": "proved",
   "theorems": [
    "Verif.C06_ip6_int",
    "Verif.C06_ip6_bytes",
    "Verif.C06_ip6_text"
   ],
   "note": ""
  },
  {
   "property": "C07",
   "status": "proved",
   "theorems": [
    "Verif.C07_mac_classes",
    "Verif.C07_mac_classes_disjoint"
   ],
   "note": ""
  },
  {
   "property": "C08",
   "status": "partial",
   "theorems": [
    "Verif.C08_ip4_classes_partial",
    "Verif.C08_reserved_wrong_witness",
    "Verif.C08_reserved_partial",
    "Verif.C08_unicast_partial"
   ],
   "note": "False for the reserved class; witness and the exact set the code computes."
  },
  {
   "property": "C09",
   "status": "proved",
   "theorems": [
    "Verif.C09_ip6_classes"
   ],
   "note": ""
  },
  {
   "property": "C10",
   "status": "proved",
   "theorems": [
    "Verif.C10_ip4_mask",
    "Verif.C10_ip6_mask"
   ],
   "note": ""
  },
  {
   "property": "C11",
   "status": "proved",
   "theorems": [
    "Verif.C11_ip4_membership",
    "Verif.C11_ip6_membership",
    "Verif.C11_network_of_address",
    "Verif.C11_network_of_address6"
   ],
   "note": ""
  },
  {
   "property": "C12",
   "status": "proved",
   "theorems": [
    "Verif.C12_ip4_gateway",
    "Verif.C12_ip4_gateway_accepts",
    "Verif.C12_ip6_gateway",
    "Verif.C12_unchecked_network_witness"
   ],
   "note": "the (address, network) constructor is unchecked, see the witness"
  },
  {
   "property": "C13",
   "status": "proved",
   "theorems": [
    "Verif.C13_ip4_multicast_mac",
    "Verif.C13_ip6_multicast_mac",
    "Verif.C13_solicited_node",
    "Verif.C13_eui64",
    "Verif.C13_eui64_injective"
   ],
   "note": ""
  },
  {
   "property": "C14",
   "status": "proved",
   "theorems": [
    "Verif.C14_ether_roundtrip",
    "Verif.C14_ether_accepted"
   ],
   "note": ""
  },
  {
   "property": "C15",
   "status": "proved",
   "theorems": [
    "Verif.C15_arp_roundtrip",
    "Verif.C15_arp_accepted"
   ],
   "note": ""
  },
  {
   "property": "C16",
   "status": "partial",
   "theorems": [
    "Verif.C16_ip4_roundtrip",
    "Verif.C16_ip4_frag_roundtrip",
    "Verif.C16_options_checksum_witness"
   ],
   "note": "Headers without options: proved in full. With options the property is false for some headers (checksum generation loses a carry, witness); proved for every header whose written checksum verifies. Options after the first end-of-list byte are not returned by the parser."
  },
  {
   "property": "C17",
   "status": "partial",
   "theorems": [
    "Verif.C17_ip6_roundtrip_partial",
    "Verif.C17_ip6_roundtrip_dscp0_partial",
    "Verif.C17_dscp_lost_witness",
    "Verif.C17_ip6_frag_roundtrip"
   ],
   "note": "False of the code for DSCP (witness: every non-zero DSCP is changed) and flow labels above 20 bits; the exact values that come back are proved, and the full round trip for DSCP 0."
  },
  {
   "property": "C18",
   "status": "proved",
   "theorems": [
    "Verif.C18_udp_roundtrip",
    "Verif.C18_udp_accepted"
   ],
   "note": ""
  },
  {
   "property": "C19",
   "status": "proved",
   "theorems": [
    "Verif.C19_tcp_roundtrip",
    "Verif.C19_tcp_option_values"
   ],
   "note": "Accepted back whenever the written checksum verifies (C02)."
  },
  {
   "property": "C20",
   "status": "partial",
   "theorems": [
    "Verif.C20_icmp4_roundtrip",
    "Verif.C20_short_unreachable_witness"
   ],
   "note": "Accepted back iff the written checksum verifies (C02); unreachable messages quoting under 4 bytes are not accepted back (witness)."
  },
  {
   "property": "C21",
   "status": "partial",
   "theorems": [
    "Verif.C21_icmp6_roundtrip_partial",
    "Verif.C21_pi_r_flag_witness",
    "Verif.C21_rs_options_witness",
    "Verif.C21_mld2_one_record",
    "Verif.C21_mld2_two_records"
   ],
   "note": "All message types and options except: the R flag of a prefix option and router solicitations with options (false, witnesses); reading back several MLDv2 records (false, witness theorem; one record proved)."
  },
  {
   "property": "C22",
   "status": "proved",
   "theorems": [
    "Verif.C22_ether_total",
    "Verif.C22_arp_total",
    "Verif.C22_udp_total",
    "Verif.C22_icmp4_total",
    "Verif.C22_ip6_total",
    "Verif.C22_ip6_frag_total"
   ],
   "note": ""
  },
  {
   "property": "C23",
   "status": "partial",
   "theorems": [
    "Verif.C23_ip4_raises_witness",
    "Verif.C23_ip4_total_partial"
   ],
   "note": "False of the code (witness); proved that the witness pattern is the only way it can raise."
  },
  {
   "property": "C24",
   "status": "partial",
   "theorems": [
    "Verif.C24_short_segment_witness",
    "Verif.C24_short_segments",
    "Verif.C24_trailing_kind_witness",
    "Verif.C24_short_option_witness",
    "Verif.C24_tcp_total_partial"
   ],
   "note": "False of the code (witnesses); proved that these are the only ways the parser can raise."
  },
  {
   "property": "C25",
   "status": "partial",
   "theorems": [
    "Verif.C25_icmp6_raises_only_partial",
    "Verif.C25_icmp6_read_partial",
    "Verif.C25_icmp6_stray_byte_witness",
    "Verif.C25_icmp6_short_prefix_witness",
    "Verif.C25_icmp6_long_prefix_witness",
    "Verif.C25_icmp6_hang_witness"
   ],
   "note": "False of the code (witnesses); proved that these patterns are the only ways the parser can raise or hang."
  },
  {
   "property": "C26",
   "status": "partial",
   "theorems": [
    "Verif.C26_ip4_accepted_partial",
    "Verif.C26_ip6_accepted",
    "Verif.C26_ip4_ttl_zero_witness",
    "Verif.C26_ip4_reserved_witness"
   ],
   "note": "IPv6 in full. IPv4: false for zero TTL and odd reserved sources (witnesses), the rest proved."
  },
  {
   "property": "C27",
   "status": "proved",
   "theorems": [
    "Verif.C27_ip4_fragmentation",
    "Verif.C27_ip4_fragmentation_succeeds"
   ],
   "note": ""
  },
  {
   "property": "C28",
   "status": "proved",
   "theorems": [
    "Verif.C28_ip6_fragmentation",
    "Verif.C28_ip6_fragmentation_succeeds"
   ],
   "note": "The fragments carry the default hop limit 64 whatever the request said; stated in the theorem."
  },
  {
   "property": "C29",
   "status": "proved",
   "theorems": [
    "Verif.C29_ip4_reassembly",
    "Verif.C29_ip4_any_order"
   ],
   "note": "For non-empty datagrams of at most 65515 bytes; the flow key has no protocol, as in the code."
  },
  {
   "property": "C30",
   "status": "proved",
   "theorems": [
    "Verif.C30_ip6_reassembly"
   ],
   "note": "For non-empty datagrams of at most 65535 bytes."
  },
  {
   "property": "C31",
   "status": "partial",
   "theorems": [
    "Verif.C31_ip4_raises_only_partial",
    "Verif.C31_ip6_raises_only_partial",
    "Verif.Example.C31_overlap_witness",
    "Verif.C31_oversize_witness"
   ],
   "note": "False of the code (witnesses). Proved: it raises only if fragments of one datagram overlap or end too far."
  },
  {
   "property": "C32",
   "status": "partial",
   "theorems": [
    "Verif.C32_never_expires_witness",
    "Verif.Example.C32_stale_witness"
   ],
   "note": "False of the code: the age test has its operands swapped. Proved: with a monotone clock nothing is ever forgotten."
  },
  {
   "property": "C33",
   "status": "proved",
   "theorems": [
    "Verif.C33_ip4_source_owned",
    "Verif.C33_ip4_source_choice",
    "Verif.C33_ip4_unspecified_destination"
   ],
   "note": ""
  },
  {
   "property": "C34",
   "status": "proved",
   "theorems": [
    "Verif.C34_ip6_source_owned",
    "Verif.C34_ip6_source_choice"
   ],
   "note": ""
  },
  {
   "property": "C35",
   "status": "proved",
   "theorems": [
    "Verif.C35_ip4_next_hop",
    "Verif.C35_ip6_next_hop",
    "Verif.C35_ether"
   ],
   "note": ""
  },
  {
   "property": "C36",
   "status": "proved",
   "theorems": [
    "Verif.C36_foreign_mac",
    "Verif.C36_foreign_ip4",
    "Verif.C36_foreign_ip6"
   ],
   "note": "Stated on the bytes of the frame (destination fields at their offsets).  In the IPv4 case the parser may raise instead (C23); even then nothing is sent, learnt or delivered."
  },
  {
   "property": "C37",
   "status": "partial",
   "theorems": [
    "Verif.C37_arp",
    "Verif.C37_only_arp",
    "Verif.C37_reply_on_wire",
    "Verif.C37_zero_sender_witness"
   ],
   "note": "Exact effects of every accepted ARP packet, nothing else touches ARP state, and the reply frame decodes with swapped addresses.  Partial: the reply to a request whose sender MAC is zero is dropped on the transmit side (witness)."
  },
  {
   "property": "C38",
   "status": "proved",
   "theorems": [
    "Verif.C38_wire_solicitation",
    "Verif.C38_wire_advertisement",
    "Verif.C38_wire_only",
    "Verif.C38_solicitation",
    "Verif.C38_advertisement",
    "Verif.C38_only"
   ],
   "note": "The wire theorems speak of the bytes of the frame. Exact effects of accepted solicitations and advertisements, and that no other frame sends advertisements or teaches the cache."
  },
  {
   "property": "C39",
   "status": "proved",
   "theorems": [
    "Verif.C39_wire4",
    "Verif.C39_wire6",
    "Verif.C39_wire4_only",
    "Verif.C39_wire6_only",
    "Verif.C39_echo4",
    "Verif.C39_echo6",
    "Verif.C39_only"
   ],
   "note": "The wire theorems speak of the bytes of the frame and of the reply. Exactly one reply for each accepted unfragmented request; converse for every frame, reassembled packets included."
  },
  {
   "property": "C40",
   "status": "proved",
   "theorems": [
    "Verif.C40_arp_lookup",
    "Verif.C40_arp_refresh",
    "Verif.C40_arp_pass",
    "Verif.C40_arp_request"
   ],
   "note": "Visits of the maintenance thread to one entry are atomic; Example.C40_race_witness shows what happens otherwise."
  },
  {
   "property": "C41",
   "status": "proved",
   "theorems": [
    "Verif.C41_nd_lookup",
    "Verif.C41_nd_refresh",
    "Verif.C41_nd_pass",
    "Verif.C41_nd_source"
   ],
   "note": "As C40."
  },
  {
   "property": "C42",
   "status": "proved",
   "theorems": [
    "Verif.C42_timer",
    "Verif.C42_unregistered"
   ],
   "note": "Timeouts of 0 and below are covered and behave as the theorem says."
  },
  {
   "property": "C43",
   "status": "proved",
   "theorems": [
    "Verif.C43_task",
    "Verif.C43_nonpositive"
   ],
   "note": ""
  },
  {
   "property": "C44",
   "status": "proved",
   "theorems": [
    "Verif.C44_rx_ring",
    "Verif.C44_tx_ring",
    "Verif.C44_tx_ring_order",
    "Verif.C44_tx_ring_drains"
   ],
   "note": ""
  },
  {
   "property": "C45",
   "status": "proved",
   "theorems": [
    "Verif.C45_automatic_port",
    "Verif.C45_fails_only_when_full"
   ],
   "note": "Any choice of set.pop() among the free ports."
  },
  {
   "property": "C46",
   "status": "proved",
   "theorems": [
    "Verif.C46_exclusive_bind_close",
    "Verif.C46_exclusive",
    "Verif.C46_bind_iff",
    "Verif.C46_bind_effect",
    "Verif.C46_use_after_close_witness"
   ],
   "note": "C46_exclusive extends it to all socket calls, for histories that do not use a closed socket again; the witness shows that this is needed."
  },
  {
   "property": "C47",
   "status": "proved",
   "theorems": [
    "Verif.C47_wire",
    "Verif.C47_delivery",
    "Verif.C47_invalid",
    "Verif.C80_udp"
   ],
   "note": "C47_wire speaks of the bytes of the frame. After any history of socket calls; matching stated as MostSpecific over the registered sockets."
  },
  {
   "property": "C48",
   "status": "proved",
   "theorems": [
    "Verif.C48_recvfrom_fifo",
    "Verif.C48_recv_fifo",
    "Verif.C48_no_more_than_delivered"
   ],
   "note": "Calls are atomic."
  },
  {
   "property": "C49",
   "status": "proved",
   "theorems": [
    "Verif.C49_recv_refused_iff",
    "Verif.C49_send_refused_iff",
    "Verif.C49_once",
    "Verif.C49_never_without"
   ],
   "note": "Besides ICMP messages, the code takes sending or connecting to the unspecified address as a notification (Spec.Marks)."
  },
  {
   "property": "C50",
   "status": "proved",
   "theorems": [
    "Verif.C50_unreachable4",
    "Verif.C50_unreachable6",
    "Verif.C50_sender"
   ],
   "note": "For any quoted bytes; never raises."
  },
  {
   "property": "C51",
   "status": "proved",
   "theorems": [
    "Verif.C51_send",
    "Verif.C51_accepted_iff"
   ],
   "note": "Atomic send calls."
  },
  {
   "property": "C52",
   "status": "proved",
   "theorems": [
    "Verif.C52_prefix",
    "Verif.C52_acked_is_buffered",
    "Verif.C52_in_order_delivered"
   ],
   "note": "For every history of one session and every peer stream (numbers not reduced modulo 2^32, as stated)."
  },
  {
   "property": "C53",
   "status": "partial",
   "theorems": [
    "Verif.C53_sent_partial",
    "Verif.C53_buffer_partial",
    "Verif.C53_early_ack"
   ],
   "note": "For every history in which no arriving segment acknowledges the initial sequence number itself; C53_early_ack shows that without this the property is false of the code."
  },
  {
   "property": "C54",
   "status": "partial",
   "theorems": [
    "Verif.C54_journey_partial"
   ],
   "note": "For every history in which no arriving segment acknowledges the initial sequence number itself."
  },
  {
   "property": "C55",
   "status": "partial",
   "theorems": [
    "Verif.C55_unregistered",
    "Verif.C55_closed_ignores",
    "Verif.C55_closed_silent",
    "Verif.C55_connect_released_partial",
    "Verif.C55_reader_released_partial",
    "Verif.C55_connect_stuck",
    "Verif.C55_reader_stuck"
   ],
   "note": "Removal from the table and silence in full.  Callers are released when a connecting session is refused or times out and when an established session is closed; C55_connect_stuck and C55_reader_stuck show the cases in which the code leaves callers blocked for ever."
  },
  {
   "property": "C56",
   "status": "partial",
   "theorems": [
    "Verif.C56_bounded_partial",
    "Verif.C56_spacing_partial",
    "Verif.C56_silent_partial",
    "Verif.C56_never_aborts",
    "Verif.C56_never_retransmitted"
   ],
   "note": "The bound of four transmissions, the doubling timeouts, and the end by RST after 15 s of silence are proved where nothing but the timeout drives retransmission. The claim is false in general: repeated acknowledgements push the counter past the limit (C56_never_aborts), and an acknowledgement inside a segment leaves the rest without a timer (C56_never_retransmitted)."
  },
  {
   "property": "C57",
   "status": "partial",
   "theorems": [
    "Verif.C57_window_partial",
    "Verif.C57_timeout",
    "Verif.C57_syn_ack"
   ],
   "note": "For every history in which nothing acknowledges the initial number: each event sends at most one data segment, within the peer's MSS and within max(window, MSS).  False of the code in two cases, both witnessed: after a retransmission timeout one MSS is sent whatever the window, and the window of the SYN|ACK is scaled."
  },
  {
   "property": "C58",
   "status": "partial",
   "theorems": [
    "Verif.C58_acked_partial",
    "Verif.C58_stream_partial",
    "Verif.C58_raises"
   ],
   "note": "For sessions that are ESTABLISHED or CLOSE_WAIT when 100 ms have passed and whose timer method does not raise; C58_raises shows that a peer that takes back window makes it raise and the acknowledgement is not sent."
  },
  {
   "property": "C59",
   "status": "partial",
   "theorems": [
    "Verif.C59_eof_partial",
    "Verif.C59_data_before_fin_partial",
    "Verif.C59_race",
    "Verif.C59_no_fin"
   ],
   "note": "End of stream: for receive calls that are not interrupted; C59_race shows that an interrupted one makes the next return the empty string too early.  All accepted data is sent before the FIN; C59_no_fin shows that the FIN may never be sent."
  },
  {
   "property": "C60",
   "status": "proved",
   "theorems": [
    "Verif.C60_reset_plausible",
    "Verif.C60_reset_syn_sent",
    "Verif.C60_reset_honoured",
    "Verif.C60_close_wait"
   ],
   "note": "The wording 'in the window' is the code's test una <= ack <= max.  In TIME_WAIT resets are ignored; in CLOSE_WAIT only a RST without ACK is honoured."
  },
  {
   "property": "C61",
   "status": "partial",
   "theorems": [
    "Verif.C61_accept",
    "Verif.C61_independent",
    "Verif.C61_stream",
    "Verif.C61_own_segments",
    "Verif.C61_spawn_partial",
    "Verif.C61_ignored",
    "Verif.C61_close_race"
   ],
   "note": "accept() order and uniqueness, independence of sessions and delivery of segments to their own session are proved for every history of all sockets and sessions. Session creation is proved for SYNs with acknowledgement number 0 and no data and is false for others (C61_ignored: silently dropped); close() on the listener can hit the new connection instead (C61_close_race)."
  },
  {
   "property": "C62",
   "status": "partial",
   "theorems": [
    "Verif.C62_last_number",
    "Verif.C62_send_partial",
    "Verif.C62_receive",
    "Verif.C62_raises"
   ],
   "note": "False of the code.  Proved, for every history: with the last initial number no connection opens; nothing is sent more than 1460 bytes beyond the end of the numbers; nothing is received more than one segment beyond it.  C62_raises: the timer method raises."
  },
  {
   "property": "C63",
   "status": "partial",
   "theorems": [
    "Verif.C63_reset_partial",
    "Verif.C63_wrap_witness",
    "Verif.C63_rst_witness"
   ],
   "note": "The exact answer to every segment that no socket takes.  False at the sequence-number wrap (assembler assertion) and for segments with RST (answered): both witnessed."
  },
  {
   "property": "C64",
   "status": "proved",
   "theorems": [
    "Verif.C64_membership",
    "Verif.C64_startup"
   ],
   "note": "C64_startup extends it to every start-up, whatever is heard meanwhile."
  },
  {
   "property": "C65",
   "status": "partial",
   "theorems": [
    "Verif.C65_ip6_safe",
    "Verif.C65_ip6_partial",
    "Verif.C65_ip6_spurious",
    "Verif.C65_ip4_partial",
    "Verif.C65_ip4_probes",
    "Verif.C65_ip4_conflict"
   ],
   "note": "IPv6: an answered candidate is never assigned, for every start-up and schedule; an unanswered one is assigned unless an earlier candidate was answered twice or late (C65_ip6_spurious shows that this is needed). IPv4: every candidate is assigned, conflicts or not (C65_ip4_conflict): the receive side notes conflicts in another set than the one start-up reads."
  },
  {
   "property": "C66",
   "status": "partial",
   "theorems": [
    "Verif.C66_roundtrip_partial",
    "Verif.C66_not_ascii"
   ],
   "note": "For names of ASCII characters; C66_not_ascii shows that another name makes a message that cannot be parsed.  An argument that Python takes as false (mask /0, empty list or text, 0) makes no option."
  },
  {
   "property": "C67",
   "status": "partial",
   "theorems": [
    "Verif.C67_enough",
    "Verif.C67_ends_partial",
    "Verif.C67_wellformed_partial",
    "Verif.C67_pad"
   ],
   "note": "False of the code: C67_pad shows that a PAD after any header and any well-formed options is never left.  Without a zero byte among the options parsing ends.  C67_enough: the bound on the rounds in the model is no restriction."
  },
  {
   "property": "C68",
   "status": "proved",
   "theorems": [
    "Verif.C68_host",
    "Verif.C68_none",
    "Verif.C68_closed",
    "Verif.C68_left_open",
    "Verif.C68_messages",
    "Verif.C68_not_matched"
   ],
   "note": "Exact conditions for each result.  C68_left_open and C68_not_matched record what the code does on malformed replies and on replies to other clients."
  },
  {
   "property": "C69",
   "status": "proved",
   "theorems": [
    "Verif.C69_ip4_status",
    "Verif.C69_ip6_status"
   ],
   "note": "An IPv6 send from the unspecified address has all fragments refused and reports 'unknown'; stated in the theorem."
  },
  {
   "property": "C70",
   "status": "partial",
   "theorems": [
    "Verif.C70_ip4_sendto_partial",
    "Verif.C70_ip4_send_partial",
    "Verif.C70_ip6_sendto_partial",
    "Verif.C70_ip6_send_partial",
    "Verif.C70_delivered",
    "Verif.C70_delivered_once",
    "Verif.C70_recvfrom",
    "Verif.C70_checksum_witness",
    "Verif.C70_too_long_witness"
   ],
   "note": "For every schedule of arrivals (reordering, duplication, other traffic) and every socket history at the receiver: each arrival that completes the datagram delivers it to the most specific socket with payload, address and port as sent, none of the others does.  The full claim is false of the code: a datagram whose checksum does not verify (lost carry, C02) is dropped, and IPv4 payloads of 65508 to 65527 bytes are sent but raise an exception in the receiver; both have witnesses."
  },
  {
   "property": "C71",
   "status": "partial",
   "theorems": [
    "Verif.C71_exhausted_witness"
   ],
   "note": "False of the code: characterised exactly, for every sequence of sends."
  },
  {
   "property": "C72",
   "status": "proved",
   "theorems": [
    "Verif.C72_pick_local_ip4",
    "Verif.C72_pick_local_ip6"
   ],
   "note": ""
  },
  {
   "property": "C73",
   "status": "proved",
   "theorems": [
    "Verif.C73_tracker",
    "Verif.C73_digits",
    "Verif.C73_text"
   ],
   "note": ""
  },
  {
   "property": "C74",
   "status": "proved",
   "theorems": [
    "Verif.C74_tcp_accepted"
   ],
   "note": ""
  },
  {
   "property": "C75",
   "status": "proved",
   "theorems": [
    "Verif.fsm_terminates"
   ],
   "note": "Python's recursion limit is not modelled."
  },
  {
   "property": "C76",
   "status": "partial",
   "theorems": [
    "Verif.C76_wire",
    "Verif.C76_wire_only",
    "Verif.C76_no_exception",
    "Verif.C76_autoconfiguration_partial",
    "Verif.C76_spurious"
   ],
   "note": "From the bytes of the router advertisement (prefixes of 64 bits with the autonomous flag, a link-local router) to the addresses. The router advertisements of a schedule are those the receive path makes of frames. No exception, for every schedule; the addresses, where no address was answered twice or late (C76_spurious shows that this is needed)."
  },
  {
   "property": "C77",
   "status": "proved",
   "theorems": [
    "Verif.C77_ip4_text",
    "Verif.C77_ip6_text",
    "Verif.C77_host_str",
    "Verif.C77_mask_text",
    "Verif.C77_str_to_ip",
    "Verif.C77_negative_length_witness"
   ],
   "note": "C77_negative_length_witness records that a negative IPv4 prefix length is read as 0."
  },
  {
   "property": "C78",
   "status": "proved",
   "theorems": [
    "Verif.C78_wire",
    "Verif.C80_tcp"
   ],
   "note": "On the bytes of the frame, after any history of socket calls; the fields are those of RFC 9293."
  },
  {
   "property": "C79",
   "status": "proved",
   "theorems": [
    "Verif.C79_connect_iff",
    "Verif.C79_connect_effect",
    "Verif.C79_sendto"
   ],
   "note": "For sockets the application made, after any history of socket calls, and any configuration of addresses. The start of the TCP session after registration is C55."
  },
  {
   "property": "C80",
   "status": "proved",
   "theorems": [
    "Verif.C80_udp",
    "Verif.C80_tcp",
    "Verif.C80_reset",
    "Verif.C80_mixed"
   ],
   "note": "After any frames (the clock, addresses and sockets may change in between) and any history of socket calls. C80_mixed: the protocol is not part of what identifies a fragmented IPv4 datagram."
  },
  {
   "property": "C81",
   "status": "proved",
   "theorems": [
    "Verif.C81_prefix",
    "Verif.C81_no_loss",
    "Verif.C81_sent_before_fin",
    "Verif.C81_fin_means_all"
   ],
   "note": "Both ends are sessions of this stack, each opened by connect or by listen; the only assumption is that the segments that arrive at one end were sent by the other or are resets (no forged data and no older connection with the same ports). Initial numbers are arbitrary; at the end of the number space a session raises (C62), so no wrap-around occurs."
  },
  {
   "property": "C82",
   "status": "partial",
   "theorems": [
    "Verif.C82_join",
    "Verif.C82_last_report_partial",
    "Verif.C82_leave_silent",
    "Verif.C82_stale_report"
   ],
   "note": "Every join is reported, with all groups (C82_join, every history). Removals are not reported at all (C82_leave_silent), so the last report can list a group the stack has left (C82_stale_report); it is right for histories without removals (C82_last_report_partial)."
  },
  {
   "property": "C83",
   "status": "partial",
   "theorems": [
    "Verif.C83_ip4",
    "Verif.C83_ip6_partial",
    "Verif.C83_ip6_fragments",
    "Verif.C83_arrives4",
    "Verif.C83_arrives6",
    "Verif.C83_host4",
    "Verif.C83_host6_partial"
   ],
   "note": "Over IPv4 all of it, for an MTU of at least 1500 (C83_ip4), and over IPv6 for the segments that fit the MTU (C83_ip6_partial). It fails over IPv6 for full segments at the usual MTU: they are always fragmented (C83_ip6_fragments). C83_arrives4/6 say what the frame does at the other end, given that the checksum in it is right: C02 says when it may not be."
  },
  {
   "property": "C84",
   "status": "proved",
   "theorems": [
    "Verif.C84_prefix",
    "Verif.C84_no_loss",
    "Verif.C84_sent_before_fin",
    "Verif.C84_fin_means_all"
   ],
   "note": "The second host is symmetric (Spec.Hosts.swap). Segments with the addresses and ports of the connection come from the session of the other host that has them, or are resets; all other segments are arbitrary. Each host has had one session with these addresses and ports (Spec.Only): a second one in the same host could take old segments of the first."
  },
  {
   "property": "C85",
   "status": "proved",
   "theorems": [
    "Verif.C85_connects",
    "Verif.C85_delivered",
    "Verif.C85_delivered_back",
    "Verif.C85_once"
   ],
   "note": "Two sessions of the stack; the network keeps the order, loses nothing and delays at most d <= 400 ms; the applications send, receive and connect, but do not close; sequence numbers stay below 2^32. The timers and the timer method run every millisecond at both ends."
  },
  {
   "property": "C86",
   "status": "partial",
   "theorems": [
    "Verif.C86_resent_partial",
    "Verif.C86_old_ignored",
    "Verif.C86_early_ignored",
    "Verif.C86_lost_ack"
   ],
   "note": "A lost segment is sent again up to three times, after 1, 2 and 4 s of silence (C86_resent_partial: the first three of the transmissions of C56). That the loss of any one segment is made good is false: a segment that was received is never acknowledged again (C86_old_ignored), so the loss of the acknowledgement ends the connection when nothing more is sent (C86_lost_ack)."
  },
  {
   "property": "C87",
   "status": "partial",
   "theorems": [
    "Verif.C87_same",
    "Verif.C87_truthful",
    "Verif.C87_total",
    "Verif.C87_balanced_partial",
    "Verif.C87_link",
    "Verif.C87_link_malformed",
    "Verif.C87_arp",
    "Verif.C87_ip4",
    "Verif.C87_ip6",
    "Verif.C87_udp",
    "Verif.C87_tcp",
    "Verif.C87_tcp_socket",
    "Verif.C87_malformed",
    "Verif.C87_malformed4",
    "Verif.C87_malformed6",
    "Verif.C87_icmp4",
    "Verif.C87_uncounted",
    "Verif.C87_twice"
   ],
   "note": "The handlers with counters are the handlers of the other properties (C87_same). Every counter that names an action equals the number of such actions (C87_truthful, no hypotheses). The counters of each layer add up if the addresses of the stack are of one sort each and there is an IPv4 address (C87_balanced_partial); they do not otherwise: C87_uncounted (no IPv4 address yet) and C87_twice (32-bit mask). What each destination and protocol counter counts is stated on the bytes of the frame (C87_link, C87_arp, C87_ip4, C87_ip6, C87_udp, C87_tcp, and C87_tcp_socket for the counters of what a TCP segment is matched with), and so is which messages are counted as malformed: exactly those not in order in the sense of C106 and C107 (C87_malformed, C87_malformed4, C87_malformed6, C87_icmp4)."
  },
  {
   "property": "C88",
   "status": "proved",
   "theorems": [
    "Verif.C88_ping4",
    "Verif.C88_ping4_unknown",
    "Verif.C88_ping6",
    "Verif.C88_ping6_unknown",
    "Verif.C88_closed_port4",
    "Verif.C88_closed_port6",
    "Verif.C88_reset4",
    "Verif.C88_reset6",
    "Verif.C88_arp_request",
    "Verif.C88_arp_reply",
    "Verif.C88_solicitation",
    "Verif.C88_advertisement",
    "Verif.C88_sendto4",
    "Verif.C88_sendto6",
    "Verif.C88_sendto4_unknown",
    "Verif.C88_sendto6_unknown",
    "Verif.C88_datagram",
    "Verif.C88_refused4",
    "Verif.C88_refused6",
    "Verif.C88_same_icmp4",
    "Verif.C88_same_icmp6",
    "Verif.C88_same_udp",
    "Verif.C88_same_tcp",
    "Verif.C88_same_missing4"
   ],
   "note": "C88_same_*: the transmit functions of a host and those of the other properties (with the answers of the caches given) do the same. Bytes in, bytes out: each of the other theorems says which frames, as bytes, the host queues because of a frame or a call, and what it has learnt. The checksums of what it sends are the right ones or one too much (NearlyValid; C02). Resets are claimed for segments whose end does not pass sequence number 2^32 (C63 and C78 tell about the others)."
  },
  {
   "property": "C89",
   "status": "partial",
   "theorems": [
    "Verif.C89_resolve4",
    "Verif.C89_resolve6_partial",
    "Verif.C89_delivered4_partial",
    "Verif.C89_delivered6_partial",
    "Verif.C89_refused4_partial",
    "Verif.C89_refused6_partial"
   ],
   "note": "IPv4 address resolution is proved without conditions on checksums (ARP has none). Partial because a message whose checksum came out one too much (C02) is dropped by the other host; every theorem says which message must be right."
  },
  {
   "property": "C90",
   "status": "proved",
   "theorems": [
    "Verif.C90_genuine"
   ],
   "note": "Two whole machines (packet handler, caches, TCP sockets and sessions) with an Ethernet that carries bytes between them; UDP sockets are any. The one thing assumed about the network is that nobody else uses the peer's address as a source address (MayArrive); the machines start with no fragments waiting."
  },
  {
   "property": "C91",
   "status": "proved",
   "theorems": [
    "Verif.C91_prefix",
    "Verif.C91_no_loss",
    "Verif.C91_sent_before_fin",
    "Verif.C91_fin_means_all"
   ],
   "note": "The same network. Sole: no other session of the machine has had these two ports and this remote address (C84, C34 and C35 tell what happens otherwise)."
  },
  {
   "property": "C92",
   "status": "proved",
   "theorems": [
    "Verif.C92_same",
    "Verif.C92_balanced",
    "Verif.C92_frames",
    "Verif.C92_reason",
    "Verif.C92_passed",
    "Verif.C92_truthful",
    "Verif.C92_source4",
    "Verif.C92_source6",
    "Verif.C92_lookup4",
    "Verif.C92_lookup6",
    "Verif.C92_send_means_tried"
   ],
   "note": "The transmit functions with counters are the transmit functions of the other properties (C92_same). The counters of each layer add up for every history of calls (C92_balanced); the frames queued are those counted as queued (C92_frames), a call that reports a drop has counted the reason it reports (C92_reason) and one that reports success has queued a frame (C92_passed). The counters of the upper layers equal the number of packets, messages, flags and options asked for (C92_truthful). When the counters for source addresses and for link-layer lookups are increased is stated on the addresses (C92_source4, C92_source6, C92_lookup4, C92_lookup6). C92_send_means_tried: a counter named send of an upper layer also counts packets that a lower layer then drops."
  },
  {
   "property": "C93",
   "status": "proved",
   "theorems": [
    "Verif.C93_end_of_stream",
    "Verif.C93_acknowledged",
    "Verif.C93_closed",
    "Verif.C93_clean",
    "Verif.C93_race"
   ],
   "note": "Connection: two sessions over a network with delays of at most d, seen from either end (the one that connected or the one that listened), on which nobody has closed yet. Parts: what can happen after that end has closed; the other end does not send, and closes at any time after it has seen the end of the stream. C93_race: without that proviso the claim is false, because a segment that arrives in the millisecond between FIN_WAIT_1 and the sending of the FIN stops the FIN from ever being sent."
  },
  {
   "property": "C94",
   "status": "partial",
   "theorems": [
    "Verif.C94_asks",
    "Verif.C94_resends",
    "Verif.C94_filled_partial",
    "Verif.C94_thrown_away"
   ],
   "note": "The receiver's questions (C94_asks, for every history) and the sender's answer (C94_resends, for the two ends of a connection over any network) are proved in full. That what has been kept is delivered with what was missing (C94_filled_partial) needs that the missing segment acknowledges no more than those kept; otherwise those are thrown away and must be sent again (C94_thrown_away)."
  },
  {
   "property": "C95",
   "status": "partial",
   "theorems": [
    "Verif.C95_accepts",
    "Verif.C95_ip4_given",
    "Verif.C95_ip4_dhcp",
    "Verif.C95_ip6_given_partial",
    "Verif.C95_ip6_auto_partial",
    "Verif.C95_listens",
    "Verif.C95_leftover_witness"
   ],
   "note": "Which arguments are accepted (C95_accepts), IPv4 (C95_ip4_given, C95_ip4_dhcp) and what the stack listens to when nobody contests its addresses (C95_listens) are proved in full. For IPv6 a free address is assigned for certain only if nobody answers twice, or late, to the detection of duplicates (C65_ip6_spurious shows the refusal otherwise). C95_leftover_witness: a constructor that raises is not without effect."
  },
  {
   "property": "C96",
   "status": "partial",
   "theorems": [
    "Verif.C96_same",
    "Verif.C96_sequential_partial",
    "Verif.C96_sent_partial",
    "Verif.C96_received_partial",
    "Verif.C96_journey_partial",
    "Verif.C96_awake",
    "Verif.C96_connect",
    "Verif.C96_send_race"
   ],
   "note": "Between any two steps of a run of tcp_fsm the application's threads may do any number of steps of send, receive and connect, with any number of calls under way.  C96_sequential_partial: every such history is matched by one without thread switches with the same segments, timers and closes in the same order, in which the accepted buffers are sent one by one: same segments sent, same states, same bytes delivered, same errors.  C96_sent/received/journey_partial carry C53, C52 and C54 over.  C96_awake (no hypotheses): data in the receive buffer never waits with every receive asleep.  C96_connect (no hypotheses): connect succeeds only if the connection was established, whatever happens between its reads of the state and of the error.  Partial: no send may be under way when the application closes; C96_send_race shows the loss otherwise (accepted, never sent, though the FIN is).  Hypothesis on acknowledgements as in C53.  The countdown of timers is not split."
  },
  {
   "property": "C97",
   "status": "partial",
   "theorems": [
    "Verif.C97_timer_partial",
    "Verif.C97_task_partial",
    "Verif.C97_alive_partial",
    "Verif.C97_dies",
    "Verif.C97_raises",
    "Verif.C97_lost",
    "Verif.C97_lost_timer",
    "Verif.C97_silent"
   ],
   "note": "The timer thread in steps, none of which touches the dict of timers or the list of tasks more than once; between any two, other threads make steps of register_timer and register_method.  C97_timer_partial: a timer of n ms expires within a round of its time.  C97_task_partial: a method runs exactly once in each round it is due in and in no other.  C97_alive_partial: the thread goes on.  Partial because the code has no lock: a timer under a new name stored while the thread goes through the timers ends the thread for ever (C97_dies: for every such moment and every continuation), so does a method that raises (C97_raises), a method registered while the list is being replaced never runs (C97_lost, likewise), a timer registered at the same kind of moment is expired at once (C97_lost_timer).  C97_silent: a connection whose method is never run never sends its SYN."
  },
  {
   "property": "C98",
   "status": "partial",
   "theorems": [
    "Verif.C98_pieces",
    "Verif.C98_own_id_partial",
    "Verif.C98_genuine_partial",
    "Verif.C98_alone4",
    "Verif.C98_alone6",
    "Verif.C98_mixed",
    "Verif.C98_lost",
    "Verif.C98_reused"
   ],
   "note": "Any number of threads send packets in fragments, with thread switches between (and, for C98_pieces, inside) the accesses to the counter of identifications.  C98_pieces: what is queued are the packets, or fragments of the packets, that the calls were told to send, those of a call in order and none twice.  C98_alone4/6: a call without others in between is that of C10 and C70.  Partial because the code reads the shared counter again for each fragment: C98_own_id_partial (one identification per packet, and no other's) needs that no other call over the same IP version overlaps, C98_genuine_partial (a receiver is given only what was sent) that no two to the same address do.  C98_mixed, C98_lost, C98_reused: what happens otherwise."
  },
  {
   "property": "C99",
   "status": "partial",
   "theorems": [
    "Verif.C99_recv",
    "Verif.C99_each",
    "Verif.C99_takes",
    "Verif.C99_found",
    "Verif.C99_refused",
    "Verif.C99_reaches",
    "Verif.C99_stays",
    "Verif.C99_alone_bind_partial",
    "Verif.C99_alone_connect_partial",
    "Verif.C99_alone_sendto_partial",
    "Verif.C99_both_bound",
    "Verif.C99_raises",
    "Verif.C99_gap"
   ],
   "note": "Any number of threads use sockets, with a thread switch possible between any two accesses to the table of sockets, the queue of a socket and its semaphore.  Receiving holds in full (C99_recv, C99_each, C99_takes: every datagram to one call, in order, no call left waiting, no IndexError), and so does what the receive thread finds (C99_found, C99_refused, C99_reaches, C99_stays).  Partial because bind, connect and sendto hold no lock: they do what they should only with no other such call, and no close, between their steps (C99_alone_*_partial); otherwise two sockets are bound to one address and port (C99_both_bound), a call raises RuntimeError (C99_raises), a datagram for a socket being connected is refused (C99_gap)."
  },
  {
   "property": "C100",
   "status": "partial",
   "theorems": [
    "Verif.C100_alive",
    "Verif.C100_lookup",
    "Verif.C100_asks",
    "Verif.C100_finds",
    "Verif.C100_removed_partial",
    "Verif.C100_kept",
    "Verif.C100_swept",
    "Verif.C100_round",
    "Verif.C100_lost"
   ],
   "note": "Lookups, additions and the maintenance thread of the ARP and neighbour caches, with a thread switch possible between any two accesses to the dict, to an entry and to the clock.  In full: the maintenance thread never ends by a KeyError, a lookup returns what was known when it looked and asks if nothing was, what was learned stays for an hour, older entries go, every round visits every entry.  Partial because removal holds no lock: C100_removed_partial needs that the address is not learned anew during the visit, and C100_kept that the removal of the previous entry is not already decided; C100_lost: otherwise the new entry is lost."
  },
  {
   "property": "C101",
   "status": "partial",
   "theorems": [
    "Verif.C101_order",
    "Verif.C101_exact_partial",
    "Verif.C101_written",
    "Verif.C101_emptied_partial",
    "Verif.C101_stops",
    "Verif.C101_leaves",
    "Verif.C101_dies",
    "Verif.C101_overtakes"
   ],
   "note": "The TX ring with the transmit thread, or the RX ring with the packet handler's thread, with a thread switch possible between any two accesses to the list, the semaphore and the flag, and start and stop at any time.  In full: no frame is lost or taken twice (C101_order), what fits is written (C101_written), after stop every thread ends within five of its steps (C101_stops) with at most one more frame each (C101_leaves).  Partial because stop does not wait for the thread: dealing with the frames in order without exception (C101_exact_partial) and emptying the queue (C101_emptied_partial) need that no thread is started while another goes on; C101_dies, C101_overtakes: what happens otherwise."
  },
  {
   "property": "C102",
   "status": "partial",
   "theorems": [
    "Verif.C102_message",
    "Verif.C102_picture",
    "Verif.C102_started",
    "Verif.C102_request",
    "Verif.C102_order",
    "Verif.C102_reply4",
    "Verif.C102_reply6",
    "Verif.C102_cuts4",
    "Verif.C102_cuts6",
    "Verif.C102_dies4",
    "Verif.C102_dies6",
    "Verif.C102_round_trip4_partial",
    "Verif.C102_round_trip6_partial",
    "Verif.C102_ends_witness",
    "Verif.C102_exhausted_witness",
    "Verif.C102_source_witness"
   ],
   "note": "The UDP echo service of the examples on a host with its sockets, address tables and caches.  In full: what is sent back, that every datagram handed to the service's socket is answered once, in order, to its sender, for all histories of frames and turns of the thread (C102_order), what one answer is on the wire (C102_reply4/6; cuts4/6 when it does not fit the MTU), and exactly which messages end the service (C102_dies4/6).  Partial because the code breaks the property: a datagram from a sender to whom the host has no way ends the service (C102_ends_witness), so does, after 65535 cut-up packets, any message whose answer needs fragments (C102_exhausted_witness), the answer may come from another address than the one asked (C102_source_witness), and the round trip needs both checksums to be right, which generation does not always ensure (C02).  What an answer that needs fragments is on the wire is covered by C98 and C70, not here; C102_dies4/6 include such answers."
  },
  {
   "property": "C103",
   "status": "partial",
   "theorems": [
    "Verif.C103_reply",
    "Verif.C103_stream",
    "Verif.C103_last",
    "Verif.C103_client",
    "Verif.C103_echo",
    "Verif.C103_all_partial",
    "Verif.C103_closes",
    "Verif.C103_goes_on",
    "Verif.C103_lives",
    "Verif.C103_race_witness",
    "Verif.C103_stuck_witness",
    "Verif.C103_dies_witness"
   ],
   "note": "The TCP echo service of the examples on a connection whose other end is any client on this stack, with a network as in C81 and thread switches between all calls and inside receive.  In full: greeting and replies in order, each once (C103_stream), what the client gets (C103_client, C103_echo), the connection is closed after the end or one of the four words (C103_closes), no exception while the session may send (C103_lives).  Partial because the code breaks the property: C103_all_partial needs receive calls that are not interrupted (C103_race_witness: else the service says that the client has closed when it has not, and closes); after quit, close, bye or exit the thread does not end but waits for ever (C103_stuck_witness) or dies by an exception (C103_dies_witness).  Delivery times are not claimed."
  },
  {
   "property": "C104",
   "status": "partial",
   "theorems": [
    "Verif.C104_detects_partial",
    "Verif.C104_gateway_partial",
    "Verif.C104_free",
    "Verif.C104_ip4_partial",
    "Verif.C104_announce",
    "Verif.C104_checksum",
    "Verif.C104_unknown_asker",
    "Verif.C104_simultaneous"
   ],
   "note": "Two hosts on a link, with frames.  If one has the address, then the question of the other, which is sent whatever else is heard, makes it answer, and the answer, heard in time, keeps the other from taking the address (detects, when the asker has no address with a gateway; gateway, otherwise).  Nobody claims it: it is taken (free).  Missing, and false: a question whose checksum is wrong is not answered (checksum); with a gateway the question comes from an address, without the link-layer address, and if the owner does not know it the answer is lost (unknown_asker); two hosts that ask at the same time both take the address (simultaneous); for IPv4 the conflict is noted (ip4) and the address taken all the same (C65), and the announcement that follows changes nothing at any host (announce)."
  },
  {
   "property": "C105",
   "status": "partial",
   "theorems": [
    "Verif.C105_threads",
    "Verif.C105_stays",
    "Verif.C105_main_lives",
    "Verif.C105_next",
    "Verif.C105_stream",
    "Verif.C105_client",
    "Verif.C105_echo",
    "Verif.C105_closes",
    "Verif.C105_all_partial",
    "Verif.C105_stopped",
    "Verif.C105_stop_witness"
   ],
   "note": "The service's own thread and the threads of all its connections, on a host where anything else may happen besides (other sockets and sessions, other clients, other programs) as long as only the service uses its own sockets, and a client on such another host.  Every connection that is established gets one thread, in order (threads, stays, next); the service's own thread does not die (main_lives); for every connection the theorems of C103 hold (stream, client, echo, closes, all_partial).  Missing, and false: stop() ends nothing; a client that connects afterwards is greeted and then left alone with an open connection (stopped, stop_witness).  all_partial assumes that no receive call is interrupted (C103_race_witness)."
  },
  {
   "property": "C106",
   "status": "partial",
   "theorems": [
    "Verif.C106_arp",
    "Verif.C106_udp4",
    "Verif.C106_udp6",
    "Verif.C106_icmp4",
    "Verif.C106_icmp6_partial",
    "Verif.C106_nd_partial",
    "Verif.C106_aux_witness"
   ],
   "note": "Exactly which messages the ARP, UDP, ICMP and ICMPv6 parsers accept, as conditions on the bytes, with the RFC pseudo-headers.  IPv4 packets may have link-layer padding behind them.  Neighbour discovery messages with unreadable prefix options, and router solicitations from the unspecified address, are excluded (C25: the parser raises or hangs on some).  TCP segments, IP packets and frames are in C107.  False for multicast reports with auxiliary data, whose length the parser takes for bytes where RFC 3810 counts words of 4 (aux_witness)."
  },
  {
   "property": "C107",
   "status": "partial",
   "theorems": [
    "Verif.C107_ether",
    "Verif.C107_ip4_partial",
    "Verif.C107_ip6",
    "Verif.C107_ip6_frag",
    "Verif.C107_tcp4_partial",
    "Verif.C107_tcp6_partial",
    "Verif.C107_options",
    "Verif.C107_walked",
    "Verif.C107_option_witness"
   ],
   "note": "Exactly which frames, IPv4 and IPv6 packets, fragment headers and TCP segments the parsers accept, as conditions on the bytes.  False for IPv4 and TCP options: one with a length of 1 is accepted, and one whose length is behind the header (option_witness; exactly which are accepted is Walks, and walked says how they differ from well-formed ones); and for IPv4 packets with a time to live of 0 or an odd source in 240.0.0.0/4, as in C26."
  },
  {
   "property": "C108",
   "status": "proved",
   "theorems": [
    "Verif.C108_sockets",
    "Verif.C108_patterns",
    "Verif.C108_timer_names",
    "Verif.C108_timers_apart",
    "Verif.C108_others",
    "Verif.C108_leftover_witness"
   ],
   "note": "The names as the texts the code makes of addresses, ports and numbers.  This is what allows the other modules to know a socket by the parts of its name and a session's timers by what follows its name.  A later connection with the same addresses and ports finds what an earlier one has left (C108_leftover_witness)."
  },
  {
   "property": "C109",
   "status": "proved",
   "theorems": [
    "Verif.C109_equal",
    "Verif.C109_hash",
    "Verif.C109_equivalence",
    "Verif.C109_out_of_place_witness"
   ],
   "note": "For hosts that lie in their network, which every constructor but the one from address and network checks (C12); otherwise false (C109_out_of_place_witness)."
  },
  {
   "property": "C110",
   "status": "partial",
   "theorems": [
    "Verif.C110_read_partial",
    "Verif.C110_receive_partial",
    "Verif.C110_alive_partial",
    "Verif.C110_deaf_witness",
    "Verif.C110_short4_witness",
    "Verif.C110_short6_witness",
    "Verif.C110_spill_witness",
    "Verif.C110_frames_witness"
   ],
   "note": "False in general: a TCP segment of fewer than thirteen bytes, or one whose sequence numbers run past 2^32 - 1, ends the receive thread of any host it is addressed to (the witnesses).  Proved: which frames can (Trap, Spill: by their bytes); no other frame does, whatever the state of the host, so that the thread lives on and deals with all frames in order (alive); after one that does it deals with none (deaf_witness).  Fragments are counted among them without saying which (a reassembled packet is read again; C31 has the reassembly), and what a TCP session does with a segment it is given is left to C58 and C62."
  },
  {
   "property": "C111",
   "status": "partial",
   "theorems": [
    "Verif.C111_ip6_text_partial",
    "Verif.C111_quad_witness"
   ],
   "note": "Exactly which texts are accepted, and for which address, for every text.  False for one form: x:x:x:x:x:x:d.d.d.d of RFC 4291 is refused by the regular expression, although inet_pton knows it (C111_quad_witness, for all such texts)."
  },
  {
   "property": "C112",
   "status": "partial",
   "theorems": [
    "Verif.C112_text",
    "Verif.C112_order",
    "Verif.C112_request",
    "Verif.C112_socket",
    "Verif.C112_reply4",
    "Verif.C112_reply6",
    "Verif.C112_dies4",
    "Verif.C112_dies6",
    "Verif.C112_discard",
    "Verif.C112_discard_drains",
    "Verif.C112_discard_silent",
    "Verif.C112_ends_witness"
   ],
   "note": "Both services on a host with its sockets, address tables and caches.  In full: the text of the time and that it determines the time (C112_text); order, addressee and time of all answers over all histories (C112_order); one answer on the wire (C112_reply4/6); exactly which messages end the daytime service (C112_dies4/6); the discard service never ends and reads everything in order (C112_discard, C112_discard_drains) and is silent over all histories (C112_discard_silent).  Partial because the code breaks the property: a datagram from a sender to whom the host has no way ends the daytime service (C112_ends_witness).  Not covered: stop() and the printing."
  },
  {
   "property": "C113",
   "status": "partial",
   "theorems": [
    "Verif.C113_ip4_text_partial",
    "Verif.C113_covers",
    "Verif.C113_blank_witness",
    "Verif.C113_zero_witness"
   ],
   "note": "Exactly which texts are accepted, and for which address, for every text without white space, NUL and leading zeros; every text of an address is one of these (C113_covers).  Partial because the code breaks the property outside of them: whatever follows an address and a blank is ignored (C113_blank_witness, for all such texts), and numbers with leading zeros are octal (C113_zero_witness)."
  },
  {
   "property": "C114",
   "status": "partial",
   "theorems": [
    "Verif.C114_discard_reply",
    "Verif.C114_discard_stream",
    "Verif.C114_discard_last",
    "Verif.C114_discard_client",
    "Verif.C114_discard_silent",
    "Verif.C114_discard_all_partial",
    "Verif.C114_discard_closes",
    "Verif.C114_discard_goes_on",
    "Verif.C114_discard_lives",
    "Verif.C114_discard_race_witness",
    "Verif.C114_discard_stuck_witness",
    "Verif.C114_daytime_stream",
    "Verif.C114_daytime_count",
    "Verif.C114_daytime_says",
    "Verif.C114_daytime_closes",
    "Verif.C114_daytime_lives"
   ],
   "note": "Both services on a connection, with client, network and threads as in C103.  Daytime in full.  Discard in full but for what the code breaks: C114_discard_all_partial needs receive calls that are not interrupted (C114_discard_race_witness: else the service says that the client has closed when it has not, and closes); after quit, close, bye or exit the thread does not end but waits for ever (C114_discard_stuck_witness).  Not covered: the thread that accepts (C105 has it for the echo service, of the same base class), the pause between messages, the printing."
  },
  {
   "property": "C115",
   "status": "partial",
   "theorems": [
    "Verif.C115_order",
    "Verif.C115_count",
    "Verif.C115_next_partial",
    "Verif.C115_all",
    "Verif.C115_wire4",
    "Verif.C115_wire6",
    "Verif.C115_exhausted_witness",
    "Verif.C115_default6_witness"
   ],
   "note": "The client on a host with its address tables and caches.  In full: numbers, identifier and data of all messages over all histories (C115_order, C115_count); the frame of a message (C115_wire4/6); a client told to send up to 65536 messages sends that many (C115_all).  Partial because the code breaks the property: after 65536 messages the thread ends with AssertionError, on every host (C115_exhausted_witness; hence C115_next_partial says nothing of the turn after the 65536th message), and without a local address no IPv6 address can be pinged (C115_default6_witness).  That a request is answered by the other host is C88.  Not covered: stop() other than as a turn that finds the flag cleared, the pause and the printing."
  },
  {
   "property": "C116",
   "status": "partial",
   "theorems": [
    "Verif.C116_text",
    "Verif.C116_stream",
    "Verif.C116_count",
    "Verif.C116_says",
    "Verif.C116_complete",
    "Verif.C116_closes",
    "Verif.C116_failed",
    "Verif.C116_returns",
    "Verif.C116_lives",
    "Verif.C116_stop_witness"
   ],
   "note": "The thread of the client on its session, from the wait in connect on, with an arbitrary other end and network.  In full: the messages, their number and what arrives (C116_text, C116_stream, C116_count, C116_says, C116_complete), the close (C116_closes) and the failures (C116_failed, C116_lives).  Partial because the code breaks the property: stop() has no effect, as the loop does not look at the flag (C116_stop_witness).  Not covered: the choice of the socket, bind, the pause and the printing."
  },
  {
   "property": "C117",
   "status": "partial",
   "theorems": [
    "Verif.C117_started",
    "Verif.C117_messages",
    "Verif.C117_next_partial",
    "Verif.C117_wire4",
    "Verif.C117_wire6",
    "Verif.C117_cuts4",
    "Verif.C117_cuts6",
    "Verif.C117_long4_witness",
    "Verif.C117_long6_witness",
    "Verif.C117_leak_witness"
   ],
   "note": "The client on a host with its address tables, sockets and caches, from socket() to close().  In full: the socket after the start (C117_started), the messages and the socket over all histories, and that it is closed at the end (C117_messages), the frame of a message (C117_wire4/6) or its frames when it does not fit the MTU (C117_cuts4/6).  C117_next_partial, what each turn of the loop does, also with fragments, is for messages that UDP has room for (3276 blocks) and while the stack has identifications left (C71).  Partial because the code breaks the property: a longer message makes the thread die of struct.error, its socket left open (C117_long4_witness, C117_long6_witness); when connect fails the socket is left open and its port in use, and without a local address no IPv6 address can be reached (C117_leak_witness).  That the other host gets the datagram is C89, that an ICMP message turns the socket away is C88.  Not covered: other sockets made meanwhile, the pause and the printing."
  }
 ]
}