{"id": "C01", "title": "Checksum verification is exact", "statement": "Calling the Internet-checksum routine over a received block (plus a pseudo-header sum) returns 0 exactly when the RFC 1071 one's-complement sum of the 16-bit big-endian words of the block (odd tail zero padded) plus the pseudo-header sum is a positive multiple of 0xFFFF, i.e. exactly when the packet's checksum is right.", "quantifier": "every byte string of every length and every initial pseudo-header sum the stack can produce", "why_tests_cant": "the routine sums 32/64-bit words and folds three times; carries that get lost show up only for particular word combinations among 2^(8n) inputs", "anchors": ["pytcp/lib/ip_helper.py:inet_cksum"]}
{"id": "C02", "title": "Checksum generation is self-consistent", "statement": "A checksum computed over a block whose checksum field is zero and stored in that field makes the block verify. (False of the code for non-20-byte blocks: the last fold can lose a carry. Proved exactly when it is lost, and that IPv4 20-byte headers are always right.)", "quantifier": "every byte string with a zeroed, word-aligned checksum field", "why_tests_cant": "the failing sums are about 1 in 10^5 packets; sampling payloads is unlikely to hit them", "anchors": ["pytcp/lib/ip_helper.py:inet_cksum"]}
{"id": "C03", "title": "Any single corrupted bit is detected", "statement": "If a block passes checksum verification, the block obtained by flipping any one bit in it does not pass.", "quantifier": "every block, every bit position, every pseudo-header sum", "why_tests_cant": "universally quantified over packets and bit positions", "anchors": ["pytcp/lib/ip_helper.py:inet_cksum"]}
{"id": "C04", "title": "MAC address conversions are lossless", "statement": "Constructing a MAC address from an integer, 6 bytes, or text, and converting it back with int(), bytes(), str() returns the same value; integers outside 0..2^48-1, byte strings of other lengths and malformed text are rejected.", "quantifier": "all integers, all byte strings, all strings", "why_tests_cant": "2^48 values and unbounded malformed inputs", "anchors": ["pytcp/lib/mac_address.py:MacAddress"]}
{"id": "C05", "title": "IPv4 address conversions are lossless", "statement": "Constructing an IPv4 address from an integer, 4 bytes or dotted text, and converting back returns the same value; distinct addresses print differently; integers outside 0..2^32-1 and other lengths are rejected.", "quantifier": "all integers, all byte strings, all addresses", "why_tests_cant": "2^32 values; equality in the code is by printed text so collisions would alias addresses", "anchors": ["pytcp/lib/ip4_address.py:Ip4Address", "pytcp/lib/ip_address.py:IpAddress"]}
{"id": "C06", "title": "IPv6 address conversions are lossless", "statement": "Constructing an IPv6 address from an integer, 16 bytes or its text and converting back returns the same value; distinct addresses print differently; other integers/lengths are rejected.", "quantifier": "all integers, byte strings and addresses", "why_tests_cant": "2^128 values", "anchors": ["pytcp/lib/ip6_address.py:Ip6Address"]}
{"id": "C07", "title": "MAC classification is exact", "statement": "is_unspecified / is_broadcast / is_multicast_ip4 / is_multicast_ip6 / is_multicast_ip6_solicited_node / is_unicast hold exactly for the documented ranges, and every MAC address satisfies unicast or exactly one non-unicast family.", "quantifier": "all 2^48 MAC addresses", "why_tests_cant": "range boundaries", "anchors": ["pytcp/lib/mac_address.py:MacAddress.is_*"]}
{"id": "C08", "title": "IPv4 classification is exact", "statement": "Each IPv4 address-class predicate (loopback, multicast, private, link-local, reserved, limited broadcast, unspecified, invalid, global, unicast) holds exactly on its documented CIDR ranges. (False for the reserved class: odd addresses of 240.0.0.0/4 are missed.)", "quantifier": "all 2^32 addresses", "why_tests_cant": "range boundaries and mask typos are invisible to spot checks", "anchors": ["pytcp/lib/ip4_address.py:Ip4Address.is_*", "pytcp/lib/ip_address.py:IpAddress.is_unicast"]}
{"id": "C09", "title": "IPv6 classification is exact", "statement": "Each IPv6 address-class predicate (loopback, multicast, solicited-node, link-local, private, global, unspecified) holds exactly on its documented prefix.", "quantifier": "all 2^128 addresses", "why_tests_cant": "range boundaries", "anchors": ["pytcp/lib/ip6_address.py:Ip6Address.is_*"]}
{"id": "C10", "title": "Masks are exactly the contiguous-prefix bit patterns", "statement": "A mask value (integer/bytes or /n text) is accepted exactly when it is n one-bits followed by zero bits, its length is n, and /n text and integer forms agree.", "quantifier": "all integers and byte strings, all prefix lengths", "why_tests_cant": "2^32 / 2^128 bit patterns", "anchors": ["pytcp/lib/ip4_address.py:Ip4Mask", "pytcp/lib/ip6_address.py:Ip6Mask", "pytcp/lib/ip_address.py:IpMask"]}
{"id": "C11", "title": "Network membership is prefix matching", "statement": "An address is 'in' a network iff its first n bits equal the network's first n bits; the network's first/last/broadcast addresses are the smallest/largest members.", "quantifier": "all networks and addresses", "why_tests_cant": "2^64 / 2^256 pairs and all prefix lengths", "anchors": ["pytcp/lib/ip_address.py:IpNetwork.__contains__", "pytcp/lib/ip4_address.py:Ip4Network", "pytcp/lib/ip6_address.py:Ip6Network"]}
{"id": "C12", "title": "Host and gateway configuration is always consistent", "statement": "A host built from an address and a mask has its address inside its network, and after any sequence of gateway assignments (accepted or rejected) an IPv4 gateway is none or an address inside the network that is neither the network address, the broadcast address nor the host's own address, and an IPv6 gateway is none or in fe80::/10. (The constructor that takes an explicit network does not check membership: recorded with a witness.)", "quantifier": "every host, every sequence of gateway assignments", "why_tests_cant": "histories of assignments including rejected ones", "anchors": ["pytcp/lib/ip4_address.py:Ip4Host", "pytcp/lib/ip6_address.py:Ip6Host", "pytcp/lib/ip_address.py:IpHost"]}
{"id": "C13", "title": "Multicast MAC, solicited-node and EUI-64 mappings", "statement": "multicast_mac of any IPv4/IPv6 multicast address is a valid multicast MAC carrying the low 23/32 bits; the solicited-node group of an address carries its low 24 bits and is a solicited-node multicast address; the EUI-64 host built from a MAC and a /64 prefix lies in the prefix and distinct MACs yield distinct addresses.", "quantifier": "all addresses, MACs and /64 prefixes", "why_tests_cant": "bit-mixing over 2^128 inputs", "anchors": ["pytcp/lib/ip4_address.py:Ip4Address.multicast_mac", "pytcp/lib/ip6_address.py:Ip6Address.multicast_mac,solicited_node_multicast", "pytcp/lib/ip6_address.py:Ip6Network.eui64"]}
{"id": "C14", "title": "Ethernet frames round-trip", "statement": "Parsing an assembled Ethernet frame returns its addresses, type and payload; every accepted frame has type >= 0x0600 and at least 14 bytes, and re-assembling the parsed fields reproduces it.", "quantifier": "all MACs, types, payloads", "why_tests_cant": "unbounded payloads", "anchors": ["pytcp/protocols/ether/fpa.py", "pytcp/protocols/ether/fpp.py"]}
{"id": "C15", "title": "ARP packets round-trip", "statement": "Parsing an assembled ARP request/reply returns all of its fields; every accepted packet is Ethernet/IPv4 with operation 1 or 2.", "quantifier": "all addresses and operations; all byte strings", "why_tests_cant": "2^160 field combinations", "anchors": ["pytcp/protocols/arp/fpa.py", "pytcp/protocols/arp/fpp.py"]}
{"id": "C16", "title": "IPv4 packets round-trip", "statement": "Parsing an assembled IPv4 packet (header fields, options that fill whole 32-bit words, any payload up to the length field) succeeds, its header checksum verifies, and every field and the payload come back unchanged.", "quantifier": "all header field values, options and payloads", "why_tests_cant": "bit-packed fields and checksum carries", "anchors": ["pytcp/protocols/ip4/fpa.py:Ip4Assembler,Ip4FragAssembler", "pytcp/protocols/ip4/fpp.py:Ip4Parser"]}
{"id": "C17", "title": "IPv6 packets round-trip", "statement": "Parsing an assembled IPv6 packet returns every header field and the payload. (False for DSCP: an operator-precedence slip loses DSCP bits; and for flow labels above 20 bits.)", "quantifier": "all header field values and payloads", "why_tests_cant": "bit-packed fields", "anchors": ["pytcp/protocols/ip6/fpa.py", "pytcp/protocols/ip6/fpp.py"]}
{"id": "C18", "title": "UDP datagrams round-trip", "statement": "Parsing an assembled UDP datagram under the same IP pseudo-header returns ports and payload whenever the written checksum verifies; the length field always equals 8 + payload length.", "quantifier": "all ports, payloads and pseudo-headers", "why_tests_cant": "checksum carries, unbounded payloads", "anchors": ["pytcp/protocols/udp/fpa.py", "pytcp/protocols/udp/fpp.py"]}
{"id": "C19", "title": "TCP segments round-trip", "statement": "Parsing an assembled TCP segment returns ports, sequence/ack numbers, all flags, window, urgent pointer, payload and every option (MSS, window scale, SACK-permitted, timestamps).", "quantifier": "all header field values, option lists and payloads", "why_tests_cant": "bit-packed header, variable option list", "anchors": ["pytcp/protocols/tcp/fpa.py", "pytcp/protocols/tcp/fpp.py"]}
{"id": "C20", "title": "ICMPv4 messages round-trip", "statement": "Parsing an assembled echo request/reply or port-unreachable returns type, code, id, sequence and data (unreachable data truncated to 520 bytes).", "quantifier": "all ids, sequences, payloads", "why_tests_cant": "checksum carries, unbounded payloads", "anchors": ["pytcp/protocols/icmp4/fpa.py", "pytcp/protocols/icmp4/fpp.py"]}
{"id": "C21", "title": "ICMPv6 messages round-trip", "statement": "Parsing an assembled ICMPv6 echo, unreachable, router/neighbour solicitation/advertisement or MLDv2 report returns its fields and neighbour-discovery options. (False for the prefix-information R flag, written into the A bit.)", "quantifier": "all field values, option lists and payloads", "why_tests_cant": "option lists and bit-packed flags", "anchors": ["pytcp/protocols/icmp6/fpa.py", "pytcp/protocols/icmp6/fpp.py"]}
{"id": "C22", "title": "Parsers never crash on hostile input", "statement": "Feeding any byte string to the Ethernet, ARP, IPv6, IPv6-fragment, UDP or ICMPv4 parser either yields a parsed packet or a drop reason; no exception escapes and all field reads used after acceptance stay inside the frame.", "quantifier": "every byte string (and every consistent enclosing IP header)", "why_tests_cant": "hostile inputs are unbounded", "anchors": ["pytcp/protocols/ether/fpp.py", "pytcp/protocols/arp/fpp.py", "pytcp/protocols/ip6/fpp.py", "pytcp/protocols/ip6_ext_frag/fpp.py", "pytcp/protocols/udp/fpp.py", "pytcp/protocols/icmp4/fpp.py"]}
{"id": "C23", "title": "IPv4 parser never crashes on hostile input", "statement": "As C22 for the IPv4 parser. (False: the option walk's bound check is off by one, IndexError when an option kind is the last byte of the packet.)", "quantifier": "every byte string", "why_tests_cant": "a crash needs an option at one exact offset", "anchors": ["pytcp/protocols/ip4/fpp.py:_packet_integrity_check"]}
{"id": "C24", "title": "TCP parser never crashes on hostile input", "statement": "As C22 for the TCP parser. (False: segments shorter than 13 bytes, a trailing option kind byte and under-length options raise.)", "quantifier": "every byte string and pseudo-header", "why_tests_cant": "a crash needs an option at one exact offset", "anchors": ["pytcp/protocols/tcp/fpp.py:TcpParser"]}
{"id": "C25", "title": "ICMPv6 parser never crashes on hostile input", "statement": "As C22 for the ICMPv6 parser. (False: trailing option byte; prefix-information option with bad length or prefix length > 128; router solicitation options read at the wrong offset.)", "quantifier": "every byte string and pseudo-header", "why_tests_cant": "a crash needs an option at one exact offset", "anchors": ["pytcp/protocols/icmp6/fpp.py:Icmp6Parser"]}
{"id": "C26", "title": "Accepted IP packets are well formed", "statement": "Every packet the IPv4 (IPv6) parser accepts has version 4 (6), header and total lengths inside the frame, a verifying header checksum (v4), a non-zero TTL/hop limit and a source that is not multicast (v4: nor limited broadcast nor reserved). (False for IPv4 TTL: a zero TTL is accepted.)", "quantifier": "every byte string", "why_tests_cant": "acceptance condition over all inputs", "anchors": ["pytcp/protocols/ip4/fpp.py", "pytcp/protocols/ip6/fpp.py"]}
{"id": "C27", "title": "IPv4 fragmentation is a faithful partition", "statement": "When a datagram exceeds the MTU, the emitted fragments each fit the MTU, carry offsets that are multiples of 8, share one identification, have MF set on all but the last, and their payloads concatenated in offset order are exactly the original payload.", "quantifier": "every payload, MTU and header", "why_tests_cant": "every size and MTU", "anchors": ["pytcp/protocols/ip4/phtx.py:_phtx_ip4"]}
{"id": "C28", "title": "IPv6 fragmentation is a faithful partition", "statement": "As C27 for the IPv6 fragment extension header.", "quantifier": "every payload and MTU", "why_tests_cant": "every size and MTU", "anchors": ["pytcp/protocols/ip6_ext_frag/phtx.py:_phtx_ip6_ext_frag"]}
{"id": "C29", "title": "IPv4 reassembly is order independent", "statement": "If the fragments of a datagram arrive in any order, with duplicates, interleaved with fragments of other datagrams, then exactly when the last missing one arrives the original payload is delivered, byte for byte, and nothing is delivered before.", "quantifier": "every payload, MTU, arrival order, duplication and interleaving with other flows", "why_tests_cant": "factorially many schedules", "anchors": ["pytcp/protocols/ip4/phrx.py:_defragment_ip4_packet"]}
{"id": "C30", "title": "IPv6 reassembly is order independent", "statement": "As C29 for IPv6 fragments.", "quantifier": "every payload, MTU, arrival order and interleaving", "why_tests_cant": "factorially many schedules", "anchors": ["pytcp/protocols/ip6_ext_frag/phrx.py:_defragment_ip6_packet"]}
{"id": "C31", "title": "Reassembly never crashes on hostile fragments", "statement": "No sequence of fragments makes reassembly raise. (False: overlapping fragments and totals above 65535 raise struct.error.)", "quantifier": "every sequence of fragments", "why_tests_cant": "hostile histories", "anchors": ["pytcp/protocols/ip4/phrx.py:_defragment_ip4_packet", "pytcp/protocols/ip6_ext_frag/phrx.py:_defragment_ip6_packet"]}
{"id": "C32", "title": "Stale fragments are discarded", "statement": "A partially received datagram whose first fragment is older than the flow timeout is forgotten. (False: the age test has its operands swapped, nothing ever expires while the clock is monotone.)", "quantifier": "every history of fragments and clock readings", "why_tests_cant": "needs arbitrarily long histories", "anchors": ["pytcp/protocols/ip4/phrx.py:_defragment_ip4_packet", "pytcp/protocols/ip6_ext_frag/phrx.py:_defragment_ip6_packet"]}
{"id": "C33", "title": "IPv4 source addresses are always owned", "statement": "Every IPv4 packet handed to the link layer has a source that is one of the stack's unicast addresses, except DHCP client packets (68->67) from 0.0.0.0; packets with a foreign source or an unspecified destination are dropped with the specific status.", "quantifier": "every stack address configuration, source, destination and carried packet", "why_tests_cant": "unbounded configurations", "anchors": ["pytcp/protocols/ip4/phtx.py:_validate_src_ip4_address,_validate_dst_ip4_address"]}
{"id": "C34", "title": "IPv6 source addresses are always owned", "statement": "As C33 for IPv6, with unspecified source allowed only for DAD neighbour solicitations and MLDv2 reports.", "quantifier": "every stack address configuration", "why_tests_cant": "unbounded configurations", "anchors": ["pytcp/protocols/ip6/phtx.py:_validate_src_ip6_address,_validate_dst_ip6_address"]}
{"id": "C35", "title": "Link-layer next hop is right", "statement": "An outgoing IP packet is sent to: the mapped multicast MAC; broadcast MAC for limited/network broadcast; the gateway's cached MAC when the destination is outside the source host's network; else the destination's cached MAC; otherwise it is dropped with the specific status and nothing is queued. The source MAC is the stack's unless given.", "quantifier": "every configuration, cache content and packet", "why_tests_cant": "unbounded configurations", "anchors": ["pytcp/protocols/ether/phtx.py:_phtx_ether"]}
{"id": "C36", "title": "Packets for other hosts have no effect", "statement": "A frame whose destination MAC is not the stack's unicast, a joined multicast or broadcast, and an IP packet whose destination is not one of the stack's unicast/multicast/broadcast addresses (once the stack has an IPv4 address), is dropped: no reply, no cache update, no socket delivery.", "quantifier": "every frame and configuration", "why_tests_cant": "unbounded inputs", "anchors": ["pytcp/protocols/ether/phrx.py:_phrx_ether", "pytcp/protocols/ip4/phrx.py:_phrx_ip4", "pytcp/protocols/ip6/phrx.py:_phrx_ip6"]}
{"id": "C37", "title": "ARP behaviour", "statement": "An ARP request is answered iff it targets an owned address and its sender address is not owned; the reply carries the stack's MAC and swaps the addresses; the cache learns only from such requests, direct replies and gratuitous replies; a reply to a probe for a candidate address marks a conflict.", "quantifier": "every packet and configuration", "why_tests_cant": "unbounded inputs", "anchors": ["pytcp/protocols/arp/phrx.py:_phrx_arp"]}
{"id": "C38", "title": "Neighbour discovery behaviour", "statement": "A valid neighbour solicitation for an owned address is answered with an advertisement for that target carrying the stack's MAC, to all-nodes without the S flag when the source is unspecified (DAD) and to the sender with S otherwise; other solicitations have no effect; the cache learns only from solicitations with a source-link-layer option and advertisements with a target-link-layer option.", "quantifier": "every packet and configuration", "why_tests_cant": "unbounded inputs", "anchors": ["pytcp/protocols/icmp6/phrx.py:_phrx_icmp6"]}
{"id": "C39", "title": "Ping is answered faithfully", "statement": "Every accepted ICMPv4/ICMPv6 echo request produces exactly one echo reply with the same id, sequence and data and swapped IP addresses; no other ICMP message produces an echo reply.", "quantifier": "every echo request", "why_tests_cant": "unbounded payloads", "anchors": ["pytcp/protocols/icmp4/phrx.py:_phrx_icmp4", "pytcp/protocols/icmp6/phrx.py:_phrx_icmp6"]}
{"id": "C40", "title": "ARP cache is a map with expiry", "statement": "Over any history of adds, lookups and maintenance passes, a lookup returns the MAC most recently added for that address, unless the (non-permanent) entry was older than the maximum age at some maintenance pass since; a miss sends exactly one request and never returns a stale or other host's MAC; a used entry near expiry triggers one refresh request.", "quantifier": "every history and clock", "why_tests_cant": "histories", "anchors": ["pytcp/subsystems/arp_cache.py:ArpCache"]}
{"id": "C41", "title": "ND cache is a map with expiry", "statement": "As C40 for the IPv6 neighbour cache.", "quantifier": "every history and clock", "why_tests_cant": "histories", "anchors": ["pytcp/subsystems/nd_cache.py:NdCache"]}
{"id": "C42", "title": "Timers expire after exactly their timeout", "statement": "A timer registered with timeout n>0 is not expired for the first n-1 ticks and is expired from the n-th tick on until re-registered; other timers do not affect it. (A timeout of 0 is expired at once but reports unexpired forever after the next tick: recorded.)", "quantifier": "every n and every history of other registrations", "why_tests_cant": "unbounded tick histories", "anchors": ["pytcp/subsystems/timer.py:Timer"]}
{"id": "C43", "title": "Scheduled tasks run at the specified ticks", "statement": "A repeating task with delay d runs at ticks d, 2d, ...; with exponential delay at d, 2d, 4d...(as coded); a repeat count r gives exactly r+1 runs... and a task whose stop condition holds is removed.", "quantifier": "every delay, repeat count and tick count", "why_tests_cant": "unbounded tick histories", "anchors": ["pytcp/subsystems/timer.py:TimerTask,Timer"]}
{"id": "C44", "title": "Frame queues are FIFO and lossless", "statement": "The RX ring returns frames in arrival order, each once; the TX ring transmits packets in enqueue order, dropping exactly those larger than MTU+14 and nothing else.", "quantifier": "every history of enqueue/dequeue", "why_tests_cant": "interleavings", "anchors": ["pytcp/subsystems/rx_ring.py:RxRing", "pytcp/subsystems/tx_ring.py:TxRing"]}
{"id": "C45", "title": "Ephemeral port selection", "statement": "An automatically chosen local port lies in the configured range and is not the local port of any registered socket; selection fails only when all ports of the range are taken.", "quantifier": "every set of open sockets", "why_tests_cant": "unbounded socket sets", "anchors": ["pytcp/lib/socket.py:Socket._pick_local_port"]}
{"id": "C46", "title": "Bind exclusivity", "statement": "After any history of socket/bind/close calls, no two registered sockets of the same family and type have conflicting local addresses (equal port and equal or wildcard address); bind succeeds iff the socket is unbound, the address is owned or wildcard, the port is in range and no conflict exists.", "quantifier": "every history of socket calls", "why_tests_cant": "histories", "anchors": ["pytcp/lib/socket.py:_is_address_in_use", "pytcp/protocols/tcp/socket.py:bind", "pytcp/protocols/udp/socket.py:bind"]}
{"id": "C47", "title": "UDP delivery picks the most specific socket", "statement": "An accepted UDP datagram is delivered to exactly one socket: the connected socket matching the exact 4-tuple if any, else the socket bound to the destination address, else the wildcard-bound one (else the DHCP client pattern); otherwise to none and ICMP port unreachable is sent to the source unless it is unspecified.", "quantifier": "every socket table and datagram", "why_tests_cant": "unbounded socket tables", "anchors": ["pytcp/protocols/udp/phrx.py:_phrx_udp", "pytcp/protocols/udp/metadata.py:socket_patterns"]}
{"id": "C48", "title": "UDP receive is FIFO", "statement": "recv/recvfrom return delivered datagrams in arrival order, each exactly once and unmodified, with the right sender; with none queued recv times out and changes nothing.", "quantifier": "every history of deliveries and receives", "why_tests_cant": "histories", "anchors": ["pytcp/protocols/udp/socket.py:recv,recvfrom,process_udp_packet"]}
{"id": "C49", "title": "ICMP unreachable surfaces exactly once", "statement": "After an unreachable notification (an ICMP message, or an attempt to send or connect to the unspecified address) the next send or recv raises ConnectionRefusedError once and subsequent calls work; without a notification they never raise it.", "quantifier": "every history", "why_tests_cant": "histories", "anchors": ["pytcp/protocols/udp/socket.py:send,recv,notify_unreachable", "pytcp/protocols/icmp4/phrx.py", "pytcp/protocols/icmp6/phrx.py"]}
{"id": "C50", "title": "ICMP unreachable reaches the right socket", "statement": "An ICMP port-unreachable quoting a UDP datagram notifies exactly the most specific socket that could have sent it, for any quoted bytes (never crashing).", "quantifier": "every quoted byte string and socket table", "why_tests_cant": "hostile inputs", "anchors": ["pytcp/protocols/icmp4/phrx.py:_phrx_icmp4", "pytcp/protocols/icmp6/phrx.py:_phrx_icmp6"]}
{"id": "C51", "title": "TCP send accepts data only when it can be delivered", "statement": "send() appends the whole buffer and returns its length iff the connection is ESTABLISHED or CLOSE_WAIT, otherwise raises and queues nothing.", "quantifier": "every session state and buffer", "why_tests_cant": "states", "anchors": ["pytcp/protocols/tcp/session.py:TcpSession.send"]}
{"id": "C52", "title": "TCP receive is an in-order, loss-free, duplicate-free byte stream", "statement": "For every sequence of arriving segments that are slices of one peer byte stream at their sequence numbers (any reordering, loss, duplication, overlap) interleaved with receive() calls, the concatenation of all data returned plus data still buffered is exactly a prefix of the peer's stream, of length rcv_nxt - initial; what is acknowledged has been buffered. (Stated for streams that do not cross the 2^32 sequence wrap.)", "quantifier": "every segment history and read schedule", "why_tests_cant": "unbounded histories and interleavings", "anchors": ["pytcp/protocols/tcp/session.py:_process_ack_packet,_enqueue_rx_buffer,receive"]}
{"id": "C53", "title": "TCP transmits exactly the application's bytes", "statement": "Every data segment ever transmitted carries, at its sequence number, exactly the bytes of the concatenation of the application's send() buffers at that position; acknowledged bytes are dropped and nothing else; the application stream is never reordered or altered by retransmission.", "quantifier": "every history of sends, acks, timer ticks, losses", "why_tests_cant": "unbounded histories", "anchors": ["pytcp/protocols/tcp/session.py:_transmit_data,_transmit_packet,_process_ack_packet,_retransmit_packet_*"]}
{"id": "C54", "title": "TCP connection states follow the protocol", "statement": "In every history the session moves only along the edges of the documented TCP state diagram (plus abort to CLOSED), starting at CLOSED.", "quantifier": "every history of syscalls, segments and ticks", "why_tests_cant": "histories", "anchors": ["pytcp/protocols/tcp/session.py:_tcp_fsm_*"]}
{"id": "C55", "title": "Closed sessions are gone", "statement": "Whenever a session becomes CLOSED its socket is removed from the socket table and blocked connect/receive callers are released; a CLOSED session never transmits and ignores all segments until connect/listen.", "quantifier": "every history", "why_tests_cant": "histories", "anchors": ["pytcp/protocols/tcp/session.py:_change_state,_tcp_fsm_closed"]}
{"id": "C56", "title": "Retransmission is bounded", "statement": "An unacknowledged segment is retransmitted with exponentially growing timeout at most the configured number of times, then the connection is aborted with RST (SYN: connection timeout) and becomes CLOSED.", "quantifier": "every loss history", "why_tests_cant": "time and loss histories", "anchors": ["pytcp/protocols/tcp/session.py:_retransmit_packet_timeout"]}
{"id": "C57", "title": "Flow control is respected", "statement": "The stack never transmits data beyond the peer's most recently processed window: last transmitted byte <= snd_una + effective window, segments never exceed the peer's MSS, and the effective window never exceeds the advertised one.", "quantifier": "every history", "why_tests_cant": "histories", "anchors": ["pytcp/protocols/tcp/session.py:_transmit_data,_process_ack_packet"]}
{"id": "C58", "title": "Received data is acknowledged", "statement": "After data is accepted, an ACK covering it is emitted by the delayed-ACK handler at the latest at the first tick after the delayed-ACK timer expires (or earlier by any transmitted segment).", "quantifier": "every history", "why_tests_cant": "time histories", "anchors": ["pytcp/protocols/tcp/session.py:_delayed_ack,_transmit_packet"]}
{"id": "C59", "title": "End of stream", "statement": "receive() returns the empty string only when the remote end closed or the connection is gone and all buffered data was read; data queued before close() is sent before the FIN. (False for FIN: FIN_WAIT_1 entered with FIN unsent can move on without ever sending FIN.)", "quantifier": "every history", "why_tests_cant": "histories", "anchors": ["pytcp/protocols/tcp/session.py:receive,close,_tcp_fsm_fin_wait_1"]}
{"id": "C60", "title": "Resets are honoured only when plausible", "statement": "A RST takes down a synchronized connection only if its sequence number equals the next expected one and its ACK is in the window; otherwise it is ignored.", "quantifier": "every state and segment", "why_tests_cant": "2^64 sequence/ack pairs", "anchors": ["pytcp/protocols/tcp/session.py:_tcp_fsm_*"]}
{"id": "C61", "title": "Listening sockets accept connections in order", "statement": "Each SYN to a listening socket creates an independent session and leaves the listener listening; accept() returns established connections in the order they were established, each once.", "quantifier": "every history of inbound connections", "why_tests_cant": "interleavings", "anchors": ["pytcp/protocols/tcp/session.py:_tcp_fsm_listen,_change_state", "pytcp/protocols/tcp/socket.py:accept"]}
{"id": "C62", "title": "TCP works across sequence wrap", "statement": "Sending or receiving past sequence number 2^32-1 continues the stream. (False: sequence arithmetic is not modular; the session stalls or raises an assertion.)", "quantifier": "every initial sequence number", "why_tests_cant": "needs 4 GiB streams or particular ISNs", "anchors": ["pytcp/protocols/tcp/session.py"]}
{"id": "C63", "title": "Segments to closed ports are reset", "statement": "A TCP segment that matches no socket and carries no RST is answered by exactly one RST|ACK with swapped addresses whose ack number is seq + SYN + FIN + payload length (mod 2^32); RSTs are never answered. (False in two ways: at the wrap the sum is not reduced and the assembler asserts; segments with RST are answered like all others.)", "quantifier": "every segment and socket table", "why_tests_cant": "2^32 sequence numbers", "anchors": ["pytcp/protocols/tcp/phrx.py:_phrx_tcp"]}
{"id": "C64", "title": "Multicast membership matches the address list", "statement": "After any history of IPv6 address assignments/removals, the stack is a member of the solicited-node group of each assigned address, and the joined MAC multicast set is exactly the multicast_mac images, with shared groups kept until the last user leaves.", "quantifier": "every history", "why_tests_cant": "histories with colliding groups", "anchors": ["pytcp/subsystems/packet_handler.py:_assign_ip6_host,_remove_ip6_host,_assign_ip6_multicast,_remove_ip6_multicast"]}
{"id": "C65", "title": "Addresses are claimed only if free", "statement": "During start-up an IPv4 candidate is assigned iff no conflict was reported for it during probing, an IPv6 candidate iff DAD received no advertisement; conflicting candidates are never assigned.", "quantifier": "every set of candidates and responses", "why_tests_cant": "schedules", "anchors": ["pytcp/subsystems/packet_handler.py:_create_stack_ip4_addressing,_create_stack_ip6_addressing,_perform_ip6_nd_dad"]}
{"id": "C66", "title": "DHCP messages round-trip", "statement": "Parsing a DHCP message built by the client-side builder (any options it can build) returns all header fields and options.", "quantifier": "all field values and option lists", "why_tests_cant": "variable option lists", "anchors": ["pytcp/protocols/dhcp4/ps.py:Dhcp4Packet"]}
{"id": "C67", "title": "DHCP parsing terminates", "statement": "Parsing any received DHCP datagram terminates. (False: a PAD option advances by zero bytes and loops forever.)", "quantifier": "every byte string", "why_tests_cant": "non-termination cannot be observed by a finite test", "anchors": ["pytcp/protocols/dhcp4/ps.py:Dhcp4Packet.__init__"]}
{"id": "C68", "title": "DHCP client lease handling", "statement": "fetch() returns a host only after an OFFER followed by an ACK, built from the ACK's address and mask with gateway = first router; every other reply sequence returns none and the client socket is closed in all non-raising cases.", "quantifier": "every pair of server replies", "why_tests_cant": "reply histories", "anchors": ["pytcp/protocols/dhcp4/client.py:Dhcp4Client.fetch"]}
{"id": "C69", "title": "Fragmented send reports the worst outcome", "statement": "The status returned for a fragmented datagram is PASSED only if every fragment was queued; otherwise the most severe of the fragments' failures in the documented order.", "quantifier": "every multiset of per-fragment outcomes", "why_tests_cant": "combinatorial", "anchors": ["pytcp/protocols/ip4/phtx.py:_phtx_ip4", "pytcp/protocols/ip6_ext_frag/phtx.py:_phtx_ip6_ext_frag"]}
{"id": "C70", "title": "UDP end to end", "statement": "A datagram sent with sendto on one stack, carried by any network that may reorder and duplicate fragments, is delivered to a socket bound at the destination with the same payload and the sender's address/port.", "quantifier": "every payload size, schedule and addresses", "why_tests_cant": "composition of all layers over unbounded payloads and schedules", "anchors": ["pytcp/protocols/udp/*", "pytcp/protocols/ip4/*", "pytcp/protocols/ether/*"]}
{"id": "C71", "title": "IPv4 identification does not run out", "statement": "Sending fragmented datagrams forever keeps working. (False: the identification counter is not reduced modulo 2^16 and the 65536th fragmented send raises.)", "quantifier": "every number of fragmented sends", "why_tests_cant": "needs 65536 fragmented sends", "anchors": ["pytcp/protocols/ip4/phtx.py:_phtx_ip4", "pytcp/protocols/ip4/fpa.py:Ip4FragAssembler"]}
{"id": "C72", "title": "Local address choice", "statement": "The local address picked for a destination is: the stack address on the destination's network if there is one, else the first address with a gateway, else unspecified; it is always an assigned address or unspecified.", "quantifier": "every configuration and destination", "why_tests_cant": "unbounded configurations", "anchors": ["pytcp/lib/ip_helper.py:pick_local_ip_address"]}
{"id": "C73", "title": "Packet tracker serials", "statement": "Tracker serial numbers for received and transmitted packets are consecutive modulo the wrap and never exceed 16 bits.", "quantifier": "every history", "why_tests_cant": "65536+ events", "anchors": ["pytcp/lib/tracker.py:Tracker"]}
{"id": "C74", "title": "Accepted TCP segments are well formed", "statement": "Every segment the TCP parser accepts has a verifying checksum under its pseudo-header, a header that lies inside the segment and a segment inside the frame, non-zero ports, and flags that do not contradict each other (no SYN+FIN, SYN+RST, FIN+RST, FIN without ACK).", "quantifier": "every byte string and declared length", "why_tests_cant": "2^(8n) byte strings", "anchors": ["pytcp/protocols/tcp/fpp.py:TcpParser"]}
{"id": "C75", "title": "Handling a TCP event always ends", "statement": "Every call of the session's state machine (segment, syscall or tick) returns or raises, however many segments wait in the out-of-order queue: the queue is drained by recursion, and each level takes one segment out of it.", "quantifier": "every session state and input", "why_tests_cant": "unbounded queues", "anchors": ["pytcp/protocols/tcp/session.py:tcp_fsm,_process_ack_packet"]}
{"id": "C76", "title": "Start-up configures the advertised addresses", "statement": "With automatic configuration, start-up ends without an exception for every router advertisement, with the link-local address and one address per advertised prefix (prefix and modified EUI-64 identifier, the router as gateway) for which duplicate address detection got no answer. (False in one way: a second or late answer to the detection for one address makes start-up refuse the next.)", "quantifier": "every MAC address, router advertisement and schedule of what is heard during start-up", "why_tests_cant": "schedules and unbounded prefix lists", "anchors": ["pytcp/subsystems/packet_handler.py:_create_stack_ip6_addressing", "pytcp/lib/ip6_address.py:Ip6Network.eui64"]}
{"id": "C77", "title": "Networks, hosts and masks in text", "statement": "Text of the form address/n names, for every address and n up to the length of an address, the network of the addresses that share the first n bits with it and the host with that address in that network; a greater n and text without exactly one slash are rejected. What str() gives for a mask, a network or a host is read back as the same mask, network or address and network; distinct ones print differently. str_to_ip and ip_version recognise the text of every address.", "quantifier": "all addresses, prefix lengths, networks and hosts", "why_tests_cant": "2^128 addresses times 129 lengths; equality in the code is by printed text", "anchors": ["pytcp/lib/ip4_address.py:Ip4Mask,Ip4Network,Ip4Host", "pytcp/lib/ip6_address.py:Ip6Mask,Ip6Network,Ip6Host", "pytcp/lib/ip_helper.py:str_to_ip,ip_version"]}
{"id": "C78", "title": "Received TCP segments reach their connection unaltered", "statement": "A frame that brings the stack a TCP segment with a right checksum, well-formed options and flags some TCP sends is handed to exactly one socket: the one connected to this peer, or else, for a plain SYN, the one listening at the destination address, or else the one listening for all addresses; and that socket is told the ports, sequence and acknowledgement numbers, flags, window, MSS, window scale and data that RFC 9293 reads from the bytes. If there is none, a reset is sent.", "quantifier": "every frame, segment and option list, and every history of socket calls", "why_tests_cant": "2^(8n) byte strings and unbounded histories", "anchors": ["pytcp/protocols/tcp/phrx.py:_phrx_tcp", "pytcp/protocols/tcp/fpp.py:TcpParser", "pytcp/protocols/tcp/metadata.py:TcpMetadata", "pytcp/protocols/ip4/fpp.py", "pytcp/protocols/ip6/fpp.py"]}
{"id": "C79", "title": "connect succeeds exactly when the peer can be addressed", "statement": "connect on a socket raises no exception exactly if the port is in range, the peer is an address of the socket's family (for TCP not the unspecified one), a local port is set or left, and the socket has a local address or the stack has one towards the peer: on the peer's network, or else with a gateway. Then the socket is registered with that peer and local address and port, and no other socket changes; otherwise nothing is registered or sent. sendto towards a peer without such an address raises and sends nothing.", "quantifier": "every history of socket calls, configuration of addresses, peer and port", "why_tests_cant": "unbounded histories and configurations", "anchors": ["pytcp/lib/socket.py:_set_ip_addresses", "pytcp/protocols/udp/socket.py:connect,sendto", "pytcp/protocols/tcp/socket.py:connect", "pytcp/lib/ip_helper.py:pick_local_ip_address"]}
{"id": "C80", "title": "Sockets are given only what the network brought", "statement": "Whatever datagram or segment the stack gives a socket, its source and destination, ports, flags, numbers and data are those of a UDP datagram or TCP segment with a valid checksum that the received frames brought for one of the stack's addresses: in one IP packet that is not a fragment, or as fragments, every byte having been in a fragment with the same source, destination and identification at the same place, the end of the datagram being where the last of these fragments ends and a fragment that ends the datagram having been there. It goes to the socket it belongs to, once. The same holds for the segments that make the stack answer with a reset.", "quantifier": "all finite sequences of received frames (any bytes, any clock, any change of addresses and sockets between them) and all histories of socket calls", "why_tests_cant": "Corruption, reordering, duplication and mixing of fragments give an unbounded set of frame sequences; tests show some that work.", "anchors": ["pytcp/protocols/udp/phrx.py:_phrx_udp", "pytcp/protocols/tcp/phrx.py:_phrx_tcp", "pytcp/protocols/ip4/phrx.py:_defragment_ip4_packet", "pytcp/protocols/ip6_ext_frag/phrx.py:_defragment_ip6_packet", "pytcp/protocols/ether/phrx.py:_phrx_ether"]}
{"id": "C81", "title": "A TCP connection between two hosts carries the byte streams intact", "statement": "When two applications are connected through this stack, one by connect and one by listen, over a network that may lose, repeat, delay and reorder segments, and in which anybody may send resets, then at every moment and in both directions what receive has returned (and has waiting) is a prefix of what the other side has sent with send. No byte is lost: what an application has sent is what has reached the other side, up to some point, followed by what is still in its transmit buffer. An end goes on to its FIN only when everything it has sent has reached the other side, and an end that has taken the FIN has everything.", "quantifier": "all pairs of sessions (any initial numbers, addresses and ports), all interleavings of calls, timer runs, clock ticks and arrivals at both ends, and all losses, repetitions and orders of the segments between them", "why_tests_cant": "The interleavings of two state machines and an unreliable network are unbounded; tests run one end against scripted segments.", "anchors": ["pytcp/protocols/tcp/session.py:TcpSession", "pytcp/protocols/tcp/session.py:_process_ack_packet", "pytcp/protocols/tcp/session.py:_transmit_data", "pytcp/protocols/tcp/session.py:_retransmit_packet_timeout", "pytcp/protocols/tcp/socket.py:TcpSocket"]}
{"id": "C82", "title": "Routers are told of the multicast groups", "statement": "After any history of address assignments and removals and of joins and leaves, the last listener report the stack has sent lists exactly the multicast groups it is a member of, each once, except that of all nodes; and every change of the membership is reported.", "quantifier": "every history of assignments, removals, joins and leaves", "why_tests_cant": "histories with groups that are shared and rejoined", "anchors": ["pytcp/subsystems/packet_handler.py:_send_icmp6_multicast_listener_report,_assign_ip6_multicast,_remove_ip6_multicast"]}
{"id": "C83", "title": "TCP segments on the wire", "statement": "Every segment that a connection sends, whatever has happened to it before, goes out as one Ethernet frame that holds one unfragmented IP packet with the local and remote addresses of the connection and one well-formed TCP segment, in which a receiver finds the ports, flags, numbers and data of the connection and, in a SYN, the maximum segment size 1460; and a stack to which the frame is addressed gives exactly that to the socket of the connection.", "quantifier": "every connection, every history of it, every segment it sends; every stack, route and link address", "why_tests_cant": "the flags, numbers and lengths that a connection can send are an invariant over all of its histories", "anchors": ["pytcp/subsystems/packet_handler.py:send_tcp_packet", "pytcp/protocols/tcp/phtx.py:_phtx_tcp", "pytcp/protocols/tcp/session.py:_transmit_packet", "pytcp/protocols/tcp/fpa.py:TcpAssembler", "pytcp/protocols/ip4/fpa.py:Ip4Assembler", "pytcp/protocols/ip6/fpa.py:Ip6Assembler", "pytcp/protocols/ether/fpa.py:EtherAssembler"]}
{"id": "C84", "title": "One connection among many carries its byte streams intact", "statement": "Two hosts run this stack with any number of sockets, listeners and connections, to each other and to others. For a connection between them (a pair of addresses and ports that each host has used for one connection), whatever else arrives at the hosts and whatever the applications do on other sockets, what one application has been given, and what waits for it, is a prefix of what the other has sent; nothing is lost; and an end goes on to its FIN, or reports the end of the stream, only when everything has been carried.", "quantifier": "all histories of both hosts: calls on all sockets, segments of all connections and from anybody, timers; all losses, repetitions and orders of the segments between them", "why_tests_cant": "The sockets share the registry of sessions and one network; that no segment of another connection is taken for one of this one is a property of all histories of both hosts.", "anchors": ["pytcp/protocols/tcp/phrx.py:_phrx_tcp", "pytcp/protocols/tcp/session.py:TcpSession", "pytcp/protocols/tcp/socket.py:TcpSocket", "pytcp/protocols/tcp/metadata.py:TcpMetadata"]}
{"id": "C85", "title": "Over a working network connections are set up and data arrive in time", "statement": "When the network delivers every segment in order within d <= 400 ms, two ends of the stack are connected at the latest 3*d+3 ms after the connect; everything an application has sent is with the other end after at most 2*d+104 ms for every 1460 bytes that wait; no connection is given up; and no byte is sent twice.", "quantifier": "all applications (what is sent and received, when, in pieces of any size), all delays up to d of every segment, all d up to 400 ms, all initial sequence numbers and lengths within the 32-bit range", "why_tests_cant": "Progress within a time bound is a statement about all schedules of two timers, two delayed-acknowledgement timers, the slow-start window and the network; a test runs one of them.", "anchors": ["pytcp/protocols/tcp/session.py:TcpSession", "pytcp/protocols/tcp/session.py:TcpSession._transmit_data", "pytcp/protocols/tcp/session.py:TcpSession._delayed_ack", "pytcp/protocols/tcp/session.py:TcpSession._retransmit_packet_timeout"]}
{"id": "C86", "title": "The loss of a segment is made good", "statement": "When a segment is lost it is sent again, and the connection carries on as if it had only been delayed: whichever one segment is lost (SYN, SYN|ACK, ACK or data), both ends remain connected and the data arrive.", "quantifier": "all histories of the session up to the loss, all applications, all segments that can be lost", "why_tests_cant": "The retransmission runs on timers of the sender and on what the receiver does with a segment it has seen before; which of the segments is lost, and in which state of both ends, is a matter of all schedules.", "anchors": ["pytcp/protocols/tcp/session.py:TcpSession._retransmit_packet_timeout", "pytcp/protocols/tcp/session.py:TcpSession._tcp_fsm_established", "pytcp/protocols/tcp/session.py:TcpSession._tcp_fsm_syn_rcvd", "pytcp/protocols/tcp/session.py:TcpSession._transmit_packet"]}
{"id": "C87", "title": "Packet statistics account for every received packet", "statement": "The counters of received packets can be trusted: every frame is counted once as received; at every layer what is received is what was dropped, for one reason, plus what was accepted, as one sort of destination; what a layer receives is what the layer below accepted; and a counter that names an action (a reply sent, a cache entry made, a datagram or segment handed to a socket, a reset sent) equals the number of times the stack did that.", "quantifier": "all sequences of received frames (any bytes), each in any state of the stack", "why_tests_cant": "the counters are sums over everything ever received; a test compares them after a few packets of each kind", "anchors": ["pytcp/lib/packet_stats.py:PacketStatsRx", "pytcp/protocols/ether/phrx.py:_phrx_ether", "pytcp/protocols/ip4/phrx.py:_phrx_ip4", "pytcp/protocols/ip6/phrx.py:_phrx_ip6", "pytcp/protocols/udp/phrx.py:_phrx_udp", "pytcp/protocols/tcp/phrx.py:_phrx_tcp"]}
{"id": "C88", "title": "What a host puts on the wire because of a frame or a call", "statement": "A ping is answered with one frame to the link-layer address of the next hop, with the ping's identifier, number and data; a datagram or a segment for a closed port is answered with port unreachable or a reset; an ARP request or a neighbour solicitation for an address of the host is answered and its sender remembered, an answer is remembered and nothing is sent; sendto puts the datagram in one frame to the next hop and returns its length. If the next hop is unknown, the packet is lost, sendto returns 0, and exactly one request for the next hop's address goes out. A datagram for a socket is what its next recvfrom returns; after an ICMP unreachable about a socket's datagram the next recv raises connection refused. Nothing else changes in the host, and nothing else is sent.", "quantifier": "all frames (bytes), hosts (addresses, routes, sockets after any history of calls, caches), data and ports", "why_tests_cant": "every layer takes part: a test sees one frame with one set of addresses and one state of the caches", "anchors": ["pytcp/protocols/ether/phtx.py:_phtx_ether", "pytcp/protocols/ip4/phtx.py:_phtx_ip4", "pytcp/protocols/ip6/phtx.py:_phtx_ip6", "pytcp/protocols/icmp4/phrx.py:_phrx_icmp4", "pytcp/protocols/icmp6/phrx.py:_phrx_icmp6", "pytcp/protocols/arp/phrx.py:_phrx_arp", "pytcp/protocols/udp/phrx.py:_phrx_udp", "pytcp/protocols/tcp/phrx.py:_phrx_tcp", "pytcp/protocols/udp/socket.py:sendto"]}
{"id": "C89", "title": "Two hosts on a link find each other and exchange datagrams", "statement": "A host that sends a datagram to an unknown neighbour loses it, but what it broadcasts makes the neighbour answer (and remember the host), and the answer makes the host remember the neighbour, so that the next datagram is sent to it. A datagram sent by one host is what recvfrom at the other returns, with the sender's address and port; if no socket has the port, the answer makes the sender's next recv raise connection refused. Over IPv4 and IPv6. (A message whose checksum is computed wrong is lost, see C02.)", "quantifier": "all pairs of hosts (addresses, sockets after any history of calls, caches), all data, times and ports", "why_tests_cant": "two stacks and both directions of the wire take part", "anchors": ["pytcp/protocols/arp/phrx.py:_phrx_arp", "pytcp/protocols/icmp6/phrx.py:_phrx_icmp6", "pytcp/protocols/ether/phtx.py:_phtx_ether", "pytcp/protocols/udp/socket.py:sendto", "pytcp/protocols/udp/socket.py:recvfrom", "pytcp/protocols/udp/socket.py:recv"]}
{"id": "C90", "title": "A datagram received from another machine is one that it sent", "statement": "Two machines run this stack, with a network between them that may lose, repeat, delay and reorder frames and on which there may be other machines, as long as nobody else uses the addresses of the two. Whatever has happened, when a UDP socket of one receives a datagram from the other's address, the other machine has sent a datagram with exactly this data, from this port, to this address and port: no datagram is mixed up with another, not even when datagrams are cut into fragments that arrive in any order.", "quantifier": "all pairs of machines, all histories of frames, calls, timers and cache changes on both, all UDP sockets", "why_tests_cant": "fragments of all datagrams, in all orders, and everything else both machines do", "anchors": ["pytcp/protocols/ip4/phtx.py:_phtx_ip4", "pytcp/protocols/ip6/phtx.py:_phtx_ip6", "pytcp/protocols/ip6_ext_frag/phtx.py:_phtx_ip6_ext_frag", "pytcp/protocols/ip4/phrx.py:_defragment_ip4_packet", "pytcp/protocols/ip6_ext_frag/phrx.py:_defragment_ip6_packet", "pytcp/protocols/udp/phrx.py:_phrx_udp", "pytcp/protocols/udp/phtx.py:_phtx_udp"]}
{"id": "C91", "title": "A TCP connection between two machines is a reliable byte stream, down to the frames", "statement": "Two machines run this stack, with a network between them as in C90. What the application at either end of a connection has been given is a prefix of what the application at the other end has sent. While an end may send, everything its application has sent has reached the other end up to some point and the rest is still in its transmit buffer. Once an end has sent its FIN, everything it sent has reached the other end; once an end has taken the other's FIN, it has been given everything the other has sent.", "quantifier": "all pairs of machines, all histories of frames (bytes), calls, timers and cache changes on both, with any other connections and datagrams", "why_tests_cant": "as C84, with checksums, headers, fragmentation and address resolution in between", "anchors": ["pytcp/protocols/tcp/session.py:TcpSession", "pytcp/protocols/tcp/phrx.py:_phrx_tcp", "pytcp/protocols/tcp/phtx.py:_phtx_tcp", "pytcp/protocols/ip4/phtx.py:_phtx_ip4", "pytcp/protocols/ip4/phrx.py:_defragment_ip4_packet", "pytcp/protocols/ether/phtx.py:_phtx_ether", "pytcp/subsystems/tx_ring.py:TxRing"]}
{"id": "C92", "title": "Packet statistics account for every packet sent", "statement": "The counters of sent packets can be trusted: at every layer what it was given is what was dropped, for one reason, plus what went on to the next layer, whole or in fragments; the frames queued for the network are those counted as queued; a call that says a packet was dropped has counted it under the reason it gives; and the counters of protocols, messages, TCP flags and options say how many of each were asked for.", "quantifier": "all sequences of packets to be sent (ARP, ICMPv4, ICMPv6, UDP, TCP), each in any state of the stack and with any answers of the ARP and ND caches", "why_tests_cant": "the counters are sums over everything ever sent; a test compares them after one packet of each kind", "anchors": ["pytcp/lib/packet_stats.py:PacketStatsTx", "pytcp/protocols/ether/phtx.py:_phtx_ether", "pytcp/protocols/ip4/phtx.py:_phtx_ip4", "pytcp/protocols/ip6/phtx.py:_phtx_ip6", "pytcp/protocols/ip6_ext_frag/phtx.py:_phtx_ip6_ext_frag", "pytcp/protocols/udp/phtx.py:_phtx_udp", "pytcp/protocols/tcp/phtx.py:_phtx_tcp", "pytcp/protocols/icmp4/phtx.py:_phtx_icmp4", "pytcp/protocols/icmp6/phtx.py:_phtx_icmp6", "pytcp/protocols/arp/phtx.py:_phtx_arp"]}
{"id": "C93", "title": "Over a working network connections are closed in time", "statement": "When the network delivers every segment in order within d <= 400 ms, an application closes a connection, possibly with data left to send, and the other one has nothing to send: then the other end has all the data and sees the end of the stream after at most 2*d+104 ms for every 1460 bytes left and d+3 ms more; when it has closed in turn, its session is gone after 2*d+3 ms, the first one after TIME_WAIT, 30 s and d+2 ms later; no RST is sent and no FIN twice. If the other end is sending at that moment, the FIN may never be sent.", "quantifier": "all connections (which end closes, what was sent and received before, how much is left to send), all calls of the applications afterwards other than send, all times at which the second end closes, all delays up to d of every segment, all d up to 400 ms", "why_tests_cant": "closing takes both ends through five or six states while data, acknowledgements, FINs and four kinds of timers run; a test follows one interleaving", "anchors": ["pytcp/protocols/tcp/session.py:TcpSession._tcp_fsm_established", "pytcp/protocols/tcp/session.py:TcpSession._tcp_fsm_fin_wait_1", "pytcp/protocols/tcp/session.py:TcpSession._tcp_fsm_fin_wait_2", "pytcp/protocols/tcp/session.py:TcpSession._tcp_fsm_close_wait", "pytcp/protocols/tcp/session.py:TcpSession._tcp_fsm_last_ack", "pytcp/protocols/tcp/session.py:TcpSession._tcp_fsm_time_wait", "pytcp/protocols/tcp/session.py:TcpSession.close"]}
{"id": "C94", "title": "A lost segment is made good before a timer runs out", "statement": "When data arrive from further on than expected, an open TCP connection keeps them and at once sends a bare acknowledgement that says what is missing, for the first two such segments and not again. An end that gets two of these acknowledgements for the data it has sent sends them again, from the first byte that is not acknowledged, the next time its timer runs, whatever its retransmission timer says. When the missing segment arrives, the data kept are delivered together with it.", "quantifier": "every history of a connection over a network that loses, repeats, delays and reorders segments; every number of segments that arrive ahead; every amount of unacknowledged data", "why_tests_cant": "it needs every state of both ends at which a loss can happen, and every number of segments behind the gap; tests drop one segment of one exchange", "anchors": ["pytcp/protocols/tcp/session.py:TcpSession._retransmit_packet_request", "pytcp/protocols/tcp/session.py:TcpSession._tcp_fsm_established", "pytcp/protocols/tcp/session.py:TcpSession._process_ack_packet"]}
{"id": "C95", "title": "A stack gets the configuration its user asked for", "statement": "TcpIpStack(...) accepts exactly the arguments that are readable addresses, with gateways that can be gateways. After start() the stack has the MAC address given; for IPv4 exactly the address, prefix length and gateway given, or those of the DHCP lease if none is given, or no IPv4 without a lease; for IPv6 the link-local address of the MAC address and the address given, with its prefix length and gateway, as far as nobody else has them, or those of automatic configuration if none is given. It takes exactly the frames and packets for these addresses, their broadcast addresses and groups.", "quantifier": "every MAC address, IPv4 and IPv6 address, prefix length and gateway; arguments given or not; everything that can be received during start-up; every answer of a DHCP server", "why_tests_cant": "every combination of arguments, addresses and prefix lengths, and every sequence of frames while the addresses are claimed", "anchors": ["pytcp/__init__.py:TcpIpStack.__init__", "pytcp/__init__.py:TcpIpStack.start", "pytcp/subsystems/packet_handler.py:PacketHandler.acquire_ip4_addresses", "pytcp/subsystems/packet_handler.py:PacketHandler.acquire_ip6_addresses", "pytcp/subsystems/packet_handler.py:PacketHandler._create_stack_ip4_addressing", "pytcp/subsystems/packet_handler.py:PacketHandler._create_stack_ip6_addressing"]}
{"id": "C96", "title": "Thread switches do not matter", "statement": "However the threads of the application, of the packet handler and of the timer are switched in the middle of send, receive, connect and the handling of a segment or a timer, a connection behaves as if these had run one after another in some order: it sends the same segments, goes through the same states and delivers the same bytes; every byte that send accepted is sent at its place; and data that arrived never lies in the receive buffer while every receive call sleeps; and connect succeeds only if the connection was established. (False for send: a call that is under way when the application closes from another thread may succeed although its bytes are never sent.)", "quantifier": "every interleaving of the steps of the three kinds of threads, every number of calls under way, every history of segments and timers", "why_tests_cant": "the number of interleavings is unbounded and a test sees those its scheduler happens to produce", "anchors": ["pytcp/protocols/tcp/session.py:send,receive,connect,tcp_fsm,_transmit_data,_process_ack_packet,_enqueue_rx_buffer,_retransmit_packet_timeout"]}
{"id": "C97", "title": "Timers and thread switches", "statement": "However the timer thread is interrupted by other threads that register timers and methods, a timer of n milliseconds expires within one round of the n-th, a registered method runs exactly once in each round it is due in, and the timer thread goes on. (False: registering a new timer, or a new method, at the wrong moment of a round ends the timer thread for ever, loses the method for ever, or makes the timer expire at once.)", "quantifier": "every interleaving of the steps of the timer thread with any number of registrations under way in other threads", "why_tests_cant": "the moments at which it goes wrong are a few instructions long, and a test hits them by luck", "anchors": ["pytcp/subsystems/timer.py:Timer,TimerTask,register_timer,register_method,is_expired"]}
{"id": "C98", "title": "Packets sent in fragments by several threads", "statement": "Whatever other threads are sending at the same time, the fragments of a packet carry one identification, which no other packet of the time has, so that a receiver that gets all of them puts the packet together, and never puts together something that was not sent. (False: the identification is read from a shared counter again for every fragment, so a datagram is lost when another thread begins to send a fragmented one to anywhere, and two sent to one address can arrive as a datagram nobody sent.)", "quantifier": "every interleaving of any number of calls that send over IPv4 and IPv6, and every order, repetition and loss of the frames", "why_tests_cant": "tests send from one thread; mixing needs a thread switch between two fragments", "anchors": ["pytcp/protocols/ip4/phtx.py:_phtx_ip4", "pytcp/protocols/ip6_ext_frag/phtx.py:_phtx_ip6_ext_frag", "pytcp/protocols/ip6/phtx.py:_phtx_ip6"]}
{"id": "C99", "title": "Sockets used by several threads", "statement": "Whatever several threads do with sockets at the same time: every datagram put into the queue of a socket is returned by exactly one call of recv or recvfrom, in order, and no call waits while one is there; a bound socket that is left alone gets the datagrams for it; no two sockets are bound to the same address and port; bind and connect do what they do on their own. (The last two are false: the table of sockets is searched and changed without a lock, so two threads can bind the same port, a call can raise RuntimeError because another thread binds or closes a socket, and a datagram for a socket that is being connected can be refused.)", "quantifier": "every interleaving of the steps of any number of calls of socket, bind, connect, sendto, listen, close, recv and recvfrom, of sessions that begin and end, and of the receive thread with any datagrams", "why_tests_cant": "tests use one thread; the failures need a thread switch between the search of the table and the change", "anchors": ["pytcp/lib/socket.py:_is_address_in_use", "pytcp/lib/socket.py:_pick_local_port", "pytcp/protocols/udp/socket.py:bind", "pytcp/protocols/udp/socket.py:connect", "pytcp/protocols/udp/socket.py:sendto", "pytcp/protocols/udp/socket.py:recv", "pytcp/protocols/udp/socket.py:process_udp_packet", "pytcp/protocols/udp/phrx.py:_phrx_udp", "pytcp/protocols/tcp/socket.py:bind"]}
{"id": "C100", "title": "Neighbour caches used by several threads", "statement": "While lookups, additions and the maintenance of the ARP or neighbour cache go on at the same time in different threads: a lookup returns the MAC address last learned for the address and not removed by the moment it looks, or nothing and then a request is sent; what was learned stays at least an hour unless something newer is learned; entries over an hour old are removed at the next visit of the maintenance thread, which visits every entry in each round and never dies; nothing else is removed.", "quantifier": "all addresses and MAC addresses, all numbers of lookups under way, all clock readings, all interleavings of the steps of the threads", "why_tests_cant": "interleavings are unbounded and a test has no control over when the interpreter switches threads; the window in which a new entry is lost is a few bytecodes wide", "anchors": ["pytcp/subsystems/arp_cache.py:find_entry", "pytcp/subsystems/arp_cache.py:add_entry", "pytcp/subsystems/arp_cache.py:__thread_maintain_cache", "pytcp/subsystems/nd_cache.py:find_entry", "pytcp/subsystems/nd_cache.py:add_entry", "pytcp/subsystems/nd_cache.py:__thread_maintain_cache"]}
{"id": "C101", "title": "Frame queues, thread switches, start and stop", "statement": "Whatever the order in which threads put frames into a frame queue, take frames out of it and are started and stopped: no frame is lost or taken twice; frames are written (or handled) in the order in which they were put in, each within a bounded number of steps of the thread that empties the queue, even if its announcement is late; no thread ends by an exception; after stop the thread leaves its loop in a bounded number of steps, taking at most one more frame, and the frames left are dealt with after the next start.", "quantifier": "all frames, all numbers of threads putting frames in, all interleavings of the steps, all moments of start and stop", "why_tests_cant": "interleavings are unbounded and a test has no control over thread switches; the window between stop and start is a tenth of a second wide but depends on the load", "anchors": ["pytcp/subsystems/tx_ring.py:enqueue", "pytcp/subsystems/tx_ring.py:__thread_transmit", "pytcp/subsystems/tx_ring.py:start", "pytcp/subsystems/tx_ring.py:stop", "pytcp/subsystems/rx_ring.py:dequeue", "pytcp/subsystems/rx_ring.py:__thread_receive", "pytcp/subsystems/packet_handler.py:__thread_packet_handler", "pytcp/subsystems/packet_handler.py:start", "pytcp/subsystems/packet_handler.py:stop"]}
{"id": "C102", "title": "The UDP echo service", "statement": "The UDP echo service, once started, answers every datagram that is delivered to its socket, once and in order, to the address and port it came from: with the message itself, or with a picture if the message names one; the answer leaves from the service's port and from the address that was asked; a client that sends a message gets the answer from recvfrom; no message can end the service.", "quantifier": "all messages, senders, host configurations, and all orders of frames and turns of the service's thread", "why_tests_cant": "the property quantifies over all histories of datagrams, over all senders (also those to whom there is no way back) and over all address configurations; tests use one client on the same network", "anchors": ["examples/udp_echo_service.py:service", "examples/lib/udp_service.py:__thread_service", "examples/lib/malpi.py:malpi", "pytcp/protocols/udp/socket.py:recvfrom", "pytcp/protocols/udp/socket.py:sendto", "pytcp/lib/socket.py:_set_ip_addresses", "pytcp/lib/ip_helper.py:pick_local_ip_address"]}
{"id": "C103", "title": "The TCP echo service", "statement": "A client that connects to the TCP echo service gets the greeting, and then for each piece that the service reads the piece itself, in order, each once (or a picture when the piece names one): a client that sends none of the service's words gets its own bytes back, however they are cut into pieces, all of them before the closing message; the service says that the client has closed only when it has; after quit, close, bye or exit, or when the client has closed, the service says so, closes the connection and its thread ends; and the thread does not end before that.", "quantifier": "all clients of this stack, all networks that lose, repeat, delay and reorder segments, all schedules of the service's thread against the stack's, all byte streams and ways of cutting them", "why_tests_cant": "The pieces that the service reads depend on the timing of segments, timers and threads; a test sees one cut.", "anchors": ["examples/tcp_echo_service.py:TcpEchoService", "examples/tcp_echo_service.py:service", "examples/lib/tcp_service.py:TcpService", "pytcp/protocols/tcp/socket.py:send", "pytcp/protocols/tcp/socket.py:recv"]}
{"id": "C104", "title": "Two hosts with the same address", "statement": "If a host on the link uses an IPv6 address, then another stack that starts with the same address as a candidate asks for it in a way that makes the user of the address answer, and does not take the address when the answer arrives while it waits, whatever other frames it handles meanwhile; an address that nobody claims is taken.  The same for IPv4 with ARP probes.", "quantifier": "every pair of hosts and their addresses, groups and caches, every candidate, every list of frames handled before, during and after the wait", "why_tests_cant": "the exchange goes through both stacks byte by byte (source selection, checksums, group membership) and depends on what else arrives meanwhile", "anchors": ["pytcp/subsystems/packet_handler.py:_perform_ip6_nd_dad", "pytcp/subsystems/packet_handler.py:_create_stack_ip6_addressing", "pytcp/subsystems/packet_handler.py:_send_icmp6_nd_dad_message", "pytcp/subsystems/packet_handler.py:_send_arp_probe", "pytcp/protocols/icmp6/phrx.py:_phrx_icmp6", "pytcp/protocols/ip6/phtx.py:_validate_src_ip6_address", "pytcp/protocols/arp/phrx.py:_phrx_arp"]}
{"id": "C105", "title": "The TCP echo service and all its clients", "statement": "While the TCP echo service runs, every connection that is established with it is accepted, in order, and served by a thread of its own; every client is sent the greeting and the replies to what it has sent itself, in order, and nothing of what is sent on other connections, whatever the other clients and programs on both hosts do; when the client has closed, the service closes.  After stop() no more clients are served, and none is left with an open connection that nobody serves.", "quantifier": "every history of the two hosts: all sockets, sessions and threads, every number of clients, every schedule of the threads, every order, loss and duplication of segments", "why_tests_cant": "the threads, the clients and the stack interleave in more ways than can be tried, and one connection's bytes must not reach another in any of them", "anchors": ["examples/lib/tcp_service.py:TcpService.__thread_service", "examples/lib/tcp_service.py:TcpService.stop", "examples/tcp_echo_service.py:TcpEchoService.service", "pytcp/protocols/tcp/socket.py:TcpSocket.accept", "pytcp/protocols/tcp/session.py:TcpSession._tcp_fsm_listen"]}
{"id": "C106", "title": "Exactly the messages that are in order are accepted", "statement": "An ARP, UDP, ICMP or ICMPv6 message is accepted if its checksum is right for the addresses it came with and its type, code, lengths and counts are those of the RFCs, and only then; everything else is dropped by the parser.", "quantifier": "every byte string, every pair of addresses and hop limit", "why_tests_cant": "both directions of an acceptance condition, over all inputs", "anchors": ["pytcp/protocols/arp/fpp.py:ArpParser", "pytcp/protocols/udp/fpp.py:UdpParser", "pytcp/protocols/icmp4/fpp.py:Icmp4Parser", "pytcp/protocols/icmp6/fpp.py:_packet_integrity_check", "pytcp/protocols/icmp6/fpp.py:_packet_sanity_check"]}
{"id": "C107", "title": "Exactly the frames, packets and segments that are in order are accepted", "statement": "An Ethernet frame, IPv4 packet, IPv6 packet, IPv6 fragment header or TCP segment is accepted if its lengths, version, checksum, source address, flags, ports and options are those of the RFCs, and only then; everything else is dropped by the parser.", "quantifier": "every byte string, with every link-layer padding, every pair of addresses", "why_tests_cant": "both directions of an acceptance condition, over all inputs; the options are a walk of any length", "anchors": ["pytcp/protocols/ether/fpp.py:EtherParser", "pytcp/protocols/ip4/fpp.py:_packet_integrity_check", "pytcp/protocols/ip4/fpp.py:_packet_sanity_check", "pytcp/protocols/ip6/fpp.py:Ip6Parser", "pytcp/protocols/ip6_ext_frag/fpp.py:Ip6ExtFragParser", "pytcp/protocols/tcp/fpp.py:_packet_integrity_check", "pytcp/protocols/tcp/fpp.py:_packet_sanity_check"]}
{"id": "C108", "title": "Names of sockets and timers tell them apart", "statement": "Sockets are kept under a text made of family, type, addresses and ports, and timers under a text made of a connection's addresses and ports and what the timer is for. Two sockets have the same text exactly if they agree in all six parts; the texts under which the socket of a received segment or datagram is looked for are those of the sockets meant; the port read back out of a text is the local port. Two timers have the same name exactly if they are the same timer of connections with the same addresses and ports; so in the one timer all connections share, each finds its timers as if it had them to itself, whatever the others do.", "quantifier": "all sockets, addresses and ports, IPv4 and IPv6, all received segments and datagrams, all histories of setting timers and of time by any number of connections", "why_tests_cant": "there are more pairs of names than can be tried, and a collision would mix up two connections only for particular addresses", "anchors": ["pytcp/lib/socket.py:Socket.__str__", "pytcp/protocols/tcp/session.py:TcpSession.__str__", "pytcp/protocols/tcp/metadata.py:TcpMetadata.tcp_listening_socket_patterns", "pytcp/protocols/udp/metadata.py:UdpMetadata.socket_patterns", "pytcp/subsystems/timer.py:Timer"]}
{"id": "C109", "title": "Equality and hashes of addresses", "statement": "Two MAC addresses, IP addresses, masks, networks or hosts compare equal exactly if they are of one sort and denote the same (for a host: address and network, not the gateway), although the code compares their printed forms; what is equal has the same hash, so that caches, sets and dictionaries find it.", "quantifier": "all pairs of MAC addresses, IPv4 and IPv6 addresses, masks, networks and hosts", "why_tests_cant": "every pair of values matters: two addresses that print alike would share a cache entry", "anchors": ["pytcp/lib/ip_address.py:IpAddress.__eq__", "pytcp/lib/ip_address.py:IpAddress.__hash__", "pytcp/lib/ip_address.py:IpNetwork.__eq__", "pytcp/lib/ip_address.py:IpHost.__eq__", "pytcp/lib/mac_address.py:MacAddress.__eq__"]}
{"id": "C110", "title": "No frame ends the receive thread", "statement": "Whatever frame arrives, the receive code deals with it without an exception, so that the thread goes on to the next frame. False: a cut off TCP segment, a cut off TCP, IPv4 or neighbour discovery option, an odd neighbour discovery message, a router solicitation to the group of all routers, and a TCP segment past the last sequence number that is answered with a reset each end the thread. Every other frame that is not a fragment is handled without an exception, in every state of the host.", "quantifier": "all frames up to the MTU, all states of the host, all times", "why_tests_cant": "one frame among all that can arrive is enough to make the host deaf for good", "anchors": ["pytcp/subsystems/packet_handler.py:PacketHandler.__thread_packet_handler", "pytcp/protocols/ether/phrx.py:_phrx_ether", "pytcp/protocols/tcp/fpp.py:TcpParser", "pytcp/protocols/tcp/phrx.py:_phrx_tcp", "pytcp/protocols/icmp6/fpp.py:Icmp6Parser", "pytcp/protocols/ip4/fpp.py:Ip4Parser"]}
{"id": "C111", "title": "Exactly which texts are IPv6 addresses", "statement": "A text is accepted as an IPv6 address exactly if it is one of the text forms of RFC 4291 (section 2.2): eight hexadecimal groups, of which the last two may be given as a dotted number, or fewer with one '::' for the zeros left out; and the address is the one the text stands for. False in one case: a text with six groups and a dotted number, without '::', is refused. Every text that is not accepted is refused with the format error (with ValueError if it holds a NUL character).", "quantifier": "every text, every address", "why_tests_cant": "There are infinitely many texts, and two recognisers (a regular expression and the system's inet_pton) must agree on all of them.", "anchors": ["pytcp/lib/ip6_address.py:IP6_REGEX", "pytcp/lib/ip6_address.py:Ip6Address.__init__"]}
{"id": "C112", "title": "The UDP daytime and discard services", "statement": "The UDP daytime service, once started, answers every datagram that is delivered to its socket, once and in order, to the address and port it came from, with the date and time at which it answers, written so that they can be read back; no message can end it.  The UDP discard service reads every datagram that is delivered to its socket, once and in order, never ends, and is silent: what the host sends, what its other sockets get and its caches are as if the service never ran.", "quantifier": "all datagrams, senders, host configurations, clock readings, and all orders of frames and turns of the services' threads", "why_tests_cant": "the property quantifies over all histories of datagrams and over all senders, and silence compares two runs over every history; tests use one client on the same network", "anchors": ["examples/udp_daytime_service.py:service", "examples/udp_discard_service.py:service", "examples/lib/udp_service.py:__thread_service", "pytcp/protocols/udp/socket.py:recvfrom", "pytcp/protocols/udp/socket.py:sendto"]}
{"id": "C113", "title": "Exactly which texts are IPv4 addresses", "statement": "A text is accepted as an IPv4 address exactly if it is four decimal numbers below 256 with dots between them, and the address is the one with these four numbers; every other text is refused with the format error.  False for texts with white space in them, of which only the part before is read, and for numbers with leading zeros, which are read as octal.", "quantifier": "every text, every address", "why_tests_cant": "There are infinitely many texts, and a regular expression that is only searched for and the lenient inet_aton must together accept the right ones.", "anchors": ["pytcp/lib/ip4_address.py:IP4_REGEX", "pytcp/lib/ip4_address.py:Ip4Address.__init__"]}
{"id": "C114", "title": "The TCP discard and daytime services", "statement": "A client that connects to the TCP discard service gets the greeting and nothing more until the end, whatever it sends; the service reads all that the client sends, in order; after quit, close, bye or exit, or when the client has closed, it says so, closes the connection and its thread ends, and the thread does not end before that.  A client that connects to the TCP daytime service gets the greeting and then lines with the times at which they are sent, in order, as many as the service was made to send, or without end; the thread does not end before that unless it is stopped or the connection can carry no more, and then it closes the connection.", "quantifier": "all clients of this stack, all networks that lose, repeat, delay and reorder segments, all schedules of the services' threads against the stack's, all byte streams and ways of cutting them, all clock readings", "why_tests_cant": "What the services read and when their calls come depends on the timing of segments, timers and threads; tests see one order of these.", "anchors": ["examples/tcp_discard_service.py:service", "examples/tcp_daytime_service.py:service", "pytcp/protocols/tcp/socket.py:send", "pytcp/protocols/tcp/socket.py:recv", "pytcp/protocols/tcp/socket.py:close", "pytcp/protocols/tcp/session.py:receive"]}
{"id": "C115", "title": "The ICMP echo client", "statement": "The ICMP echo client sends echo requests, all with one identifier and with the sequence numbers 0, 1, 2 and so on, each with the time at which it is sent as data, whatever the host receives in between; it sends as many as it was told, or goes on until it is stopped.  Each request leaves as one frame to the next hop when that is known, from the client's address or, if it has none, from the address of the host that the routing rules choose.  An IPv4 or IPv6 address can be pinged.", "quantifier": "all hosts, all addresses, all message counts, all histories of received frames, cache changes and turns of the client's thread, all clock readings", "why_tests_cant": "A test sends a few requests; a client that is left to run sends without end, and what the host receives in between is arbitrary.", "anchors": ["examples/icmp_echo_client.py:__thread_client", "pytcp/subsystems/packet_handler.py:send_icmp4_packet", "pytcp/subsystems/packet_handler.py:send_icmp6_packet", "pytcp/protocols/icmp4/phtx.py:_phtx_icmp4", "pytcp/protocols/icmp6/phtx.py:_phtx_icmp6", "pytcp/protocols/icmp4/fpa.py:__init__", "pytcp/protocols/icmp6/fpa.py:__init__"]}
{"id": "C116", "title": "The TCP echo client", "statement": "The TCP echo client sends as many messages as it was told, all of the form and size asked for, and nothing when the connection is not made; the other end gets these messages in order, and all of them when it has seen the client close.  The client closes its connection when it has sent its messages, when send fails, or when it is stopped; a failing connect or send does not end its thread by an exception.", "quantifier": "all message counts and sizes, all histories of both ends, all losses, duplications and reorderings of segments, all schedules of the client's thread", "why_tests_cant": "A test uses one count, one size and a network that loses nothing; the client is made to run without end.", "anchors": ["examples/tcp_echo_client.py:__thread_client", "examples/tcp_echo_client.py:stop", "pytcp/protocols/tcp/socket.py:connect", "pytcp/protocols/tcp/socket.py:send", "pytcp/protocols/tcp/socket.py:close", "pytcp/protocols/tcp/session.py:connect"]}
{"id": "C117", "title": "The UDP echo client", "statement": "The UDP echo client opens a socket for the address and port it is given, from its own address or the one the routing rules choose, and sends messages of the form and size asked for, as many as it was told or until it is stopped, each as one datagram from its socket to the other, whatever the host receives in between; it ends when it is stopped, has sent all, or learns that nobody hears at the other end, and its socket is closed whenever it has ended.  An IPv4 or IPv6 address can be reached.", "quantifier": "all hosts, addresses, ports, message counts and sizes, all histories of received frames, cache changes and turns of the client's thread", "why_tests_cant": "A test sends a few messages to one address; what the host receives in between and when the thread runs is arbitrary, and a leaked socket shows only at the next start.", "anchors": ["examples/udp_echo_client.py:__thread_client", "pytcp/protocols/udp/socket.py:bind", "pytcp/protocols/udp/socket.py:connect", "pytcp/protocols/udp/socket.py:send", "pytcp/protocols/udp/socket.py:close", "pytcp/lib/socket.py:_set_ip_addresses"]}
