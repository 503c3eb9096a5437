import json
P=[]
def p(i,title,statement,quant,why,anchors):
    P.append(dict(id=i,title=title,statement=statement,quantifier=quant,why_tests_cant=why,anchors=anchors))
L="pytcp/lib/";S="pytcp/subsystems/";R="pytcp/protocols/"
p("C01","Checksum verification is exact","Calling the Internet-checksum routine over a received block (plus a pseudo-header sum) returns 0 exactly when the RFC 1071 one's-complement sum of the 16-bit big-endian words of the block (odd tail zero padded) plus the pseudo-header sum is a positive multiple of 0xFFFF, i.e. exactly when the packet's checksum is right.","every byte string of every length and every initial pseudo-header sum the stack can produce","the routine sums 32/64-bit words and folds three times; carries that get lost show up only for particular word combinations among 2^(8n) inputs",[L+"ip_helper.py:inet_cksum"])
p("C02","Checksum generation is self-consistent","A checksum computed over a block whose checksum field is zero and stored in that field makes the block verify. (False of the code for non-20-byte blocks: the last fold can lose a carry. Proved exactly when it is lost, and that IPv4 20-byte headers are always right.)","every byte string with a zeroed, word-aligned checksum field","the failing sums are about 1 in 10^5 packets; sampling payloads is unlikely to hit them",[L+"ip_helper.py:inet_cksum"])
p("C03","Any single corrupted bit is detected","If a block passes checksum verification, the block obtained by flipping any one bit in it does not pass.","every block, every bit position, every pseudo-header sum","universally quantified over packets and bit positions",[L+"ip_helper.py:inet_cksum"])
p("C04","MAC address conversions are lossless","Constructing a MAC address from an integer, 6 bytes, or text, and converting it back with int(), bytes(), str() returns the same value; integers outside 0..2^48-1, byte strings of other lengths and malformed text are rejected.","all integers, all byte strings, all strings","2^48 values and unbounded malformed inputs",[L+"mac_address.py:MacAddress"])
p("C05","IPv4 address conversions are lossless","Constructing an IPv4 address from an integer, 4 bytes or dotted text, and converting back returns the same value; distinct addresses print differently; integers outside 0..2^32-1 and other lengths are rejected.","all integers, all byte strings, all addresses","2^32 values; equality in the code is by printed text so collisions would alias addresses",[L+"ip4_address.py:Ip4Address",L+"ip_address.py:IpAddress"])
p("C06","IPv6 address conversions are lossless","Constructing an IPv6 address from an integer, 16 bytes or its text and converting back returns the same value; distinct addresses print differently; other integers/lengths are rejected.","all integers, byte strings and addresses","2^128 values",[L+"ip6_address.py:Ip6Address"])
p("C07","MAC classification is exact","is_unspecified / is_broadcast / is_multicast_ip4 / is_multicast_ip6 / is_multicast_ip6_solicited_node / is_unicast hold exactly for the documented ranges, and every MAC address satisfies unicast or exactly one non-unicast family.","all 2^48 MAC addresses","range boundaries",[L+"mac_address.py:MacAddress.is_*"])
p("C08","IPv4 classification is exact","Each IPv4 address-class predicate (loopback, multicast, private, link-local, reserved, limited broadcast, unspecified, invalid, global, unicast) holds exactly on its documented CIDR ranges. (False for the reserved class: odd addresses of 240.0.0.0/4 are missed.)","all 2^32 addresses","range boundaries and mask typos are invisible to spot checks",[L+"ip4_address.py:Ip4Address.is_*",L+"ip_address.py:IpAddress.is_unicast"])
p("C09","IPv6 classification is exact","Each IPv6 address-class predicate (loopback, multicast, solicited-node, link-local, private, global, unspecified) holds exactly on its documented prefix.","all 2^128 addresses","range boundaries",[L+"ip6_address.py:Ip6Address.is_*"])
p("C10","Masks are exactly the contiguous-prefix bit patterns","A mask value (integer/bytes or /n text) is accepted exactly when it is n one-bits followed by zero bits, its length is n, and /n text and integer forms agree.","all integers and byte strings, all prefix lengths","2^32 / 2^128 bit patterns",[L+"ip4_address.py:Ip4Mask",L+"ip6_address.py:Ip6Mask",L+"ip_address.py:IpMask"])
p("C11","Network membership is prefix matching","An address is 'in' a network iff its first n bits equal the network's first n bits; the network's first/last/broadcast addresses are the smallest/largest members.","all networks and addresses","2^64 / 2^256 pairs and all prefix lengths",[L+"ip_address.py:IpNetwork.__contains__",L+"ip4_address.py:Ip4Network",L+"ip6_address.py:Ip6Network"])
p("C12","Host and gateway configuration is always consistent","A host built from an address and a mask has its address inside its network, and after any sequence of gateway assignments (accepted or rejected) an IPv4 gateway is none or an address inside the network that is neither the network address, the broadcast address nor the host's own address, and an IPv6 gateway is none or in fe80::/10. (The constructor that takes an explicit network does not check membership: recorded with a witness.)","every host, every sequence of gateway assignments","histories of assignments including rejected ones",[L+"ip4_address.py:Ip4Host",L+"ip6_address.py:Ip6Host",L+"ip_address.py:IpHost"])
p("C13","Multicast MAC, solicited-node and EUI-64 mappings","multicast_mac of any IPv4/IPv6 multicast address is a valid multicast MAC carrying the low 23/32 bits; the solicited-node group of an address carries its low 24 bits and is a solicited-node multicast address; the EUI-64 host built from a MAC and a /64 prefix lies in the prefix and distinct MACs yield distinct addresses.","all addresses, MACs and /64 prefixes","bit-mixing over 2^128 inputs",[L+"ip4_address.py:Ip4Address.multicast_mac",L+"ip6_address.py:Ip6Address.multicast_mac,solicited_node_multicast",L+"ip6_address.py:Ip6Network.eui64"])
p("C14","Ethernet frames round-trip","Parsing an assembled Ethernet frame returns its addresses, type and payload; every accepted frame has type >= 0x0600 and at least 14 bytes, and re-assembling the parsed fields reproduces it.","all MACs, types, payloads","unbounded payloads",[R+"ether/fpa.py",R+"ether/fpp.py"])
p("C15","ARP packets round-trip","Parsing an assembled ARP request/reply returns all of its fields; every accepted packet is Ethernet/IPv4 with operation 1 or 2.","all addresses and operations; all byte strings","2^160 field combinations",[R+"arp/fpa.py",R+"arp/fpp.py"])
p("C16","IPv4 packets round-trip","Parsing an assembled IPv4 packet (header fields, options that fill whole 32-bit words, any payload up to the length field) succeeds, its header checksum verifies, and every field and the payload come back unchanged.","all header field values, options and payloads","bit-packed fields and checksum carries",[R+"ip4/fpa.py:Ip4Assembler,Ip4FragAssembler",R+"ip4/fpp.py:Ip4Parser"])
p("C17","IPv6 packets round-trip","Parsing an assembled IPv6 packet returns every header field and the payload. (False for DSCP: an operator-precedence slip loses DSCP bits; and for flow labels above 20 bits.)","all header field values and payloads","bit-packed fields",[R+"ip6/fpa.py",R+"ip6/fpp.py"])
p("C18","UDP datagrams round-trip","Parsing an assembled UDP datagram under the same IP pseudo-header returns ports and payload whenever the written checksum verifies; the length field always equals 8 + payload length.","all ports, payloads and pseudo-headers","checksum carries, unbounded payloads",[R+"udp/fpa.py",R+"udp/fpp.py"])
p("C19","TCP segments round-trip","Parsing an assembled TCP segment returns ports, sequence/ack numbers, all flags, window, urgent pointer, payload and every option (MSS, window scale, SACK-permitted, timestamps).","all header field values, option lists and payloads","bit-packed header, variable option list",[R+"tcp/fpa.py",R+"tcp/fpp.py"])
p("C20","ICMPv4 messages round-trip","Parsing an assembled echo request/reply or port-unreachable returns type, code, id, sequence and data (unreachable data truncated to 520 bytes).","all ids, sequences, payloads","checksum carries, unbounded payloads",[R+"icmp4/fpa.py",R+"icmp4/fpp.py"])
p("C21","ICMPv6 messages round-trip","Parsing an assembled ICMPv6 echo, unreachable, router/neighbour solicitation/advertisement or MLDv2 report returns its fields and neighbour-discovery options. (False for the prefix-information R flag, written into the A bit.)","all field values, option lists and payloads","option lists and bit-packed flags",[R+"icmp6/fpa.py",R+"icmp6/fpp.py"])
p("C22","Parsers never crash on hostile input","Feeding any byte string to the Ethernet, ARP, IPv6, IPv6-fragment, UDP or ICMPv4 parser either yields a parsed packet or a drop reason; no exception escapes and all field reads used after acceptance stay inside the frame.","every byte string (and every consistent enclosing IP header)","hostile inputs are unbounded",[R+"ether/fpp.py",R+"arp/fpp.py",R+"ip6/fpp.py",R+"ip6_ext_frag/fpp.py",R+"udp/fpp.py",R+"icmp4/fpp.py"])
p("C23","IPv4 parser never crashes on hostile input","As C22 for the IPv4 parser. (False: the option walk's bound check is off by one, IndexError when an option kind is the last byte of the packet.)","every byte string","a crash needs an option at one exact offset",[R+"ip4/fpp.py:_packet_integrity_check"])
p("C24","TCP parser never crashes on hostile input","As C22 for the TCP parser. (False: segments shorter than 13 bytes, a trailing option kind byte and under-length options raise.)","every byte string and pseudo-header","a crash needs an option at one exact offset",[R+"tcp/fpp.py:TcpParser"])
p("C25","ICMPv6 parser never crashes on hostile input","As C22 for the ICMPv6 parser. (False: trailing option byte; prefix-information option with bad length or prefix length > 128; router solicitation options read at the wrong offset.)","every byte string and pseudo-header","a crash needs an option at one exact offset",[R+"icmp6/fpp.py:Icmp6Parser"])
p("C26","Accepted IP packets are well formed","Every packet the IPv4 (IPv6) parser accepts has version 4 (6), header and total lengths inside the frame, a verifying header checksum (v4), a non-zero TTL/hop limit and a source that is not multicast (v4: nor limited broadcast nor reserved). (False for IPv4 TTL: a zero TTL is accepted.)","every byte string","acceptance condition over all inputs",[R+"ip4/fpp.py",R+"ip6/fpp.py"])
p("C27","IPv4 fragmentation is a faithful partition","When a datagram exceeds the MTU, the emitted fragments each fit the MTU, carry offsets that are multiples of 8, share one identification, have MF set on all but the last, and their payloads concatenated in offset order are exactly the original payload.","every payload, MTU and header","every size and MTU",[R+"ip4/phtx.py:_phtx_ip4"])
p("C28","IPv6 fragmentation is a faithful partition","As C27 for the IPv6 fragment extension header.","every payload and MTU","every size and MTU",[R+"ip6_ext_frag/phtx.py:_phtx_ip6_ext_frag"])
p("C29","IPv4 reassembly is order independent","If the fragments of a datagram arrive in any order, with duplicates, interleaved with fragments of other datagrams, then exactly when the last missing one arrives the original payload is delivered, byte for byte, and nothing is delivered before.","every payload, MTU, arrival order, duplication and interleaving with other flows","factorially many schedules",[R+"ip4/phrx.py:_defragment_ip4_packet"])
p("C30","IPv6 reassembly is order independent","As C29 for IPv6 fragments.","every payload, MTU, arrival order and interleaving","factorially many schedules",[R+"ip6_ext_frag/phrx.py:_defragment_ip6_packet"])
p("C31","Reassembly never crashes on hostile fragments","No sequence of fragments makes reassembly raise. (False: overlapping fragments and totals above 65535 raise struct.error.)","every sequence of fragments","hostile histories",[R+"ip4/phrx.py:_defragment_ip4_packet",R+"ip6_ext_frag/phrx.py:_defragment_ip6_packet"])
p("C32","Stale fragments are discarded","A partially received datagram whose first fragment is older than the flow timeout is forgotten. (False: the age test has its operands swapped, nothing ever expires while the clock is monotone.)","every history of fragments and clock readings","needs arbitrarily long histories",[R+"ip4/phrx.py:_defragment_ip4_packet",R+"ip6_ext_frag/phrx.py:_defragment_ip6_packet"])
p("C33","IPv4 source addresses are always owned","Every IPv4 packet handed to the link layer has a source that is one of the stack's unicast addresses, except DHCP client packets (68->67) from 0.0.0.0; packets with a foreign source or an unspecified destination are dropped with the specific status.","every stack address configuration, source, destination and carried packet","unbounded configurations",[R+"ip4/phtx.py:_validate_src_ip4_address,_validate_dst_ip4_address"])
p("C34","IPv6 source addresses are always owned","As C33 for IPv6, with unspecified source allowed only for DAD neighbour solicitations and MLDv2 reports.","every stack address configuration","unbounded configurations",[R+"ip6/phtx.py:_validate_src_ip6_address,_validate_dst_ip6_address"])
p("C35","Link-layer next hop is right","An outgoing IP packet is sent to: the mapped multicast MAC; broadcast MAC for limited/network broadcast; the gateway's cached MAC when the destination is outside the source host's network; else the destination's cached MAC; otherwise it is dropped with the specific status and nothing is queued. The source MAC is the stack's unless given.","every configuration, cache content and packet","unbounded configurations",[R+"ether/phtx.py:_phtx_ether"])
p("C36","Packets for other hosts have no effect","A frame whose destination MAC is not the stack's unicast, a joined multicast or broadcast, and an IP packet whose destination is not one of the stack's unicast/multicast/broadcast addresses (once the stack has an IPv4 address), is dropped: no reply, no cache update, no socket delivery.","every frame and configuration","unbounded inputs",[R+"ether/phrx.py:_phrx_ether",R+"ip4/phrx.py:_phrx_ip4",R+"ip6/phrx.py:_phrx_ip6"])
p("C37","ARP behaviour","An ARP request is answered iff it targets an owned address and its sender address is not owned; the reply carries the stack's MAC and swaps the addresses; the cache learns only from such requests, direct replies and gratuitous replies; a reply to a probe for a candidate address marks a conflict.","every packet and configuration","unbounded inputs",[R+"arp/phrx.py:_phrx_arp"])
p("C38","Neighbour discovery behaviour","A valid neighbour solicitation for an owned address is answered with an advertisement for that target carrying the stack's MAC, to all-nodes without the S flag when the source is unspecified (DAD) and to the sender with S otherwise; other solicitations have no effect; the cache learns only from solicitations with a source-link-layer option and advertisements with a target-link-layer option.","every packet and configuration","unbounded inputs",[R+"icmp6/phrx.py:_phrx_icmp6"])
p("C39","Ping is answered faithfully","Every accepted ICMPv4/ICMPv6 echo request produces exactly one echo reply with the same id, sequence and data and swapped IP addresses; no other ICMP message produces an echo reply.","every echo request","unbounded payloads",[R+"icmp4/phrx.py:_phrx_icmp4",R+"icmp6/phrx.py:_phrx_icmp6"])
p("C40","ARP cache is a map with expiry","Over any history of adds, lookups and maintenance passes, a lookup returns the MAC most recently added for that address, unless the (non-permanent) entry was older than the maximum age at some maintenance pass since; a miss sends exactly one request and never returns a stale or other host's MAC; a used entry near expiry triggers one refresh request.","every history and clock","histories",[S+"arp_cache.py:ArpCache"])
p("C41","ND cache is a map with expiry","As C40 for the IPv6 neighbour cache.","every history and clock","histories",[S+"nd_cache.py:NdCache"])
p("C42","Timers expire after exactly their timeout","A timer registered with timeout n>0 is not expired for the first n-1 ticks and is expired from the n-th tick on until re-registered; other timers do not affect it. (A timeout of 0 is expired at once but reports unexpired forever after the next tick: recorded.)","every n and every history of other registrations","unbounded tick histories",[S+"timer.py:Timer"])
p("C43","Scheduled tasks run at the specified ticks","A repeating task with delay d runs at ticks d, 2d, ...; with exponential delay at d, 2d, 4d...(as coded); a repeat count r gives exactly r+1 runs... and a task whose stop condition holds is removed.","every delay, repeat count and tick count","unbounded tick histories",[S+"timer.py:TimerTask,Timer"])
p("C44","Frame queues are FIFO and lossless","The RX ring returns frames in arrival order, each once; the TX ring transmits packets in enqueue order, dropping exactly those larger than MTU+14 and nothing else.","every history of enqueue/dequeue","interleavings",[S+"rx_ring.py:RxRing",S+"tx_ring.py:TxRing"])
p("C45","Ephemeral port selection","An automatically chosen local port lies in the configured range and is not the local port of any registered socket; selection fails only when all ports of the range are taken.","every set of open sockets","unbounded socket sets",[L+"socket.py:Socket._pick_local_port"])
p("C46","Bind exclusivity","After any history of socket/bind/close calls, no two registered sockets of the same family and type have conflicting local addresses (equal port and equal or wildcard address); bind succeeds iff the socket is unbound, the address is owned or wildcard, the port is in range and no conflict exists.","every history of socket calls","histories",[L+"socket.py:_is_address_in_use",R+"tcp/socket.py:bind",R+"udp/socket.py:bind"])
p("C47","UDP delivery picks the most specific socket","An accepted UDP datagram is delivered to exactly one socket: the connected socket matching the exact 4-tuple if any, else the socket bound to the destination address, else the wildcard-bound one (else the DHCP client pattern); otherwise to none and ICMP port unreachable is sent to the source unless it is unspecified.","every socket table and datagram","unbounded socket tables",[R+"udp/phrx.py:_phrx_udp",R+"udp/metadata.py:socket_patterns"])
p("C48","UDP receive is FIFO","recv/recvfrom return delivered datagrams in arrival order, each exactly once and unmodified, with the right sender; with none queued recv times out and changes nothing.","every history of deliveries and receives","histories",[R+"udp/socket.py:recv,recvfrom,process_udp_packet"])
p("C49","ICMP unreachable surfaces exactly once","After an unreachable notification (an ICMP message, or an attempt to send or connect to the unspecified address) the next send or recv raises ConnectionRefusedError once and subsequent calls work; without a notification they never raise it.","every history","histories",[R+"udp/socket.py:send,recv,notify_unreachable",R+"icmp4/phrx.py",R+"icmp6/phrx.py"])
p("C50","ICMP unreachable reaches the right socket","An ICMP port-unreachable quoting a UDP datagram notifies exactly the most specific socket that could have sent it, for any quoted bytes (never crashing).","every quoted byte string and socket table","hostile inputs",[R+"icmp4/phrx.py:_phrx_icmp4",R+"icmp6/phrx.py:_phrx_icmp6"])
p("C51","TCP send accepts data only when it can be delivered","send() appends the whole buffer and returns its length iff the connection is ESTABLISHED or CLOSE_WAIT, otherwise raises and queues nothing.","every session state and buffer","states",[R+"tcp/session.py:TcpSession.send"])
p("C52","TCP receive is an in-order, loss-free, duplicate-free byte stream","For every sequence of arriving segments that are slices of one peer byte stream at their sequence numbers (any reordering, loss, duplication, overlap) interleaved with receive() calls, the concatenation of all data returned plus data still buffered is exactly a prefix of the peer's stream, of length rcv_nxt - initial; what is acknowledged has been buffered. (Stated for streams that do not cross the 2^32 sequence wrap.)","every segment history and read schedule","unbounded histories and interleavings",[R+"tcp/session.py:_process_ack_packet,_enqueue_rx_buffer,receive"])
p("C53","TCP transmits exactly the application's bytes","Every data segment ever transmitted carries, at its sequence number, exactly the bytes of the concatenation of the application's send() buffers at that position; acknowledged bytes are dropped and nothing else; the application stream is never reordered or altered by retransmission.","every history of sends, acks, timer ticks, losses","unbounded histories",[R+"tcp/session.py:_transmit_data,_transmit_packet,_process_ack_packet,_retransmit_packet_*"])
p("C54","TCP connection states follow the protocol","In every history the session moves only along the edges of the documented TCP state diagram (plus abort to CLOSED), starting at CLOSED.","every history of syscalls, segments and ticks","histories",[R+"tcp/session.py:_tcp_fsm_*"])
p("C55","Closed sessions are gone","Whenever a session becomes CLOSED its socket is removed from the socket table and blocked connect/receive callers are released; a CLOSED session never transmits and ignores all segments until connect/listen.","every history","histories",[R+"tcp/session.py:_change_state,_tcp_fsm_closed"])
p("C56","Retransmission is bounded","An unacknowledged segment is retransmitted with exponentially growing timeout at most the configured number of times, then the connection is aborted with RST (SYN: connection timeout) and becomes CLOSED.","every loss history","time and loss histories",[R+"tcp/session.py:_retransmit_packet_timeout"])
p("C57","Flow control is respected","The stack never transmits data beyond the peer's most recently processed window: last transmitted byte <= snd_una + effective window, segments never exceed the peer's MSS, and the effective window never exceeds the advertised one.","every history","histories",[R+"tcp/session.py:_transmit_data,_process_ack_packet"])
p("C58","Received data is acknowledged","After data is accepted, an ACK covering it is emitted by the delayed-ACK handler at the latest at the first tick after the delayed-ACK timer expires (or earlier by any transmitted segment).","every history","time histories",[R+"tcp/session.py:_delayed_ack,_transmit_packet"])
p("C59","End of stream","receive() returns the empty string only when the remote end closed or the connection is gone and all buffered data was read; data queued before close() is sent before the FIN. (False for FIN: FIN_WAIT_1 entered with FIN unsent can move on without ever sending FIN.)","every history","histories",[R+"tcp/session.py:receive,close,_tcp_fsm_fin_wait_1"])
p("C60","Resets are honoured only when plausible","A RST takes down a synchronized connection only if its sequence number equals the next expected one and its ACK is in the window; otherwise it is ignored.","every state and segment","2^64 sequence/ack pairs",[R+"tcp/session.py:_tcp_fsm_*"])
p("C61","Listening sockets accept connections in order","Each SYN to a listening socket creates an independent session and leaves the listener listening; accept() returns established connections in the order they were established, each once.","every history of inbound connections","interleavings",[R+"tcp/session.py:_tcp_fsm_listen,_change_state",R+"tcp/socket.py:accept"])
p("C62","TCP works across sequence wrap","Sending or receiving past sequence number 2^32-1 continues the stream. (False: sequence arithmetic is not modular; the session stalls or raises an assertion.)","every initial sequence number","needs 4 GiB streams or particular ISNs",[R+"tcp/session.py"])
p("C63","Segments to closed ports are reset","A TCP segment that matches no socket and carries no RST is answered by exactly one RST|ACK with swapped addresses whose ack number is seq + SYN + FIN + payload length (mod 2^32); RSTs are never answered. (False in two ways: at the wrap the sum is not reduced and the assembler asserts; segments with RST are answered like all others.)","every segment and socket table","2^32 sequence numbers",[R+"tcp/phrx.py:_phrx_tcp"])
p("C64","Multicast membership matches the address list","After any history of IPv6 address assignments/removals, the stack is a member of the solicited-node group of each assigned address, and the joined MAC multicast set is exactly the multicast_mac images, with shared groups kept until the last user leaves.","every history","histories with colliding groups",[S+"packet_handler.py:_assign_ip6_host,_remove_ip6_host,_assign_ip6_multicast,_remove_ip6_multicast"])
p("C65","Addresses are claimed only if free","During start-up an IPv4 candidate is assigned iff no conflict was reported for it during probing, an IPv6 candidate iff DAD received no advertisement; conflicting candidates are never assigned.","every set of candidates and responses","schedules",[S+"packet_handler.py:_create_stack_ip4_addressing,_create_stack_ip6_addressing,_perform_ip6_nd_dad"])
p("C66","DHCP messages round-trip","Parsing a DHCP message built by the client-side builder (any options it can build) returns all header fields and options.","all field values and option lists","variable option lists",[R+"dhcp4/ps.py:Dhcp4Packet"])
p("C67","DHCP parsing terminates","Parsing any received DHCP datagram terminates. (False: a PAD option advances by zero bytes and loops forever.)","every byte string","non-termination cannot be observed by a finite test",[R+"dhcp4/ps.py:Dhcp4Packet.__init__"])
p("C68","DHCP client lease handling","fetch() returns a host only after an OFFER followed by an ACK, built from the ACK's address and mask with gateway = first router; every other reply sequence returns none and the client socket is closed in all non-raising cases.","every pair of server replies","reply histories",[R+"dhcp4/client.py:Dhcp4Client.fetch"])
p("C69","Fragmented send reports the worst outcome","The status returned for a fragmented datagram is PASSED only if every fragment was queued; otherwise the most severe of the fragments' failures in the documented order.","every multiset of per-fragment outcomes","combinatorial",[R+"ip4/phtx.py:_phtx_ip4",R+"ip6_ext_frag/phtx.py:_phtx_ip6_ext_frag"])
p("C70","UDP end to end","A datagram sent with sendto on one stack, carried by any network that may reorder and duplicate fragments, is delivered to a socket bound at the destination with the same payload and the sender's address/port.","every payload size, schedule and addresses","composition of all layers over unbounded payloads and schedules",[R+"udp/*",R+"ip4/*",R+"ether/*"])
p("C71","IPv4 identification does not run out","Sending fragmented datagrams forever keeps working. (False: the identification counter is not reduced modulo 2^16 and the 65536th fragmented send raises.)","every number of fragmented sends","needs 65536 fragmented sends",[R+"ip4/phtx.py:_phtx_ip4",R+"ip4/fpa.py:Ip4FragAssembler"])
p("C72","Local address choice","The local address picked for a destination is: the stack address on the destination's network if there is one, else the first address with a gateway, else unspecified; it is always an assigned address or unspecified.","every configuration and destination","unbounded configurations",[L+"ip_helper.py:pick_local_ip_address"])
p("C73","Packet tracker serials","Tracker serial numbers for received and transmitted packets are consecutive modulo the wrap and never exceed 16 bits.","every history","65536+ events",[L+"tracker.py:Tracker"])
p("C74","Accepted TCP segments are well formed","Every segment the TCP parser accepts has a verifying checksum under its pseudo-header, a header that lies inside the segment and a segment inside the frame, non-zero ports, and flags that do not contradict each other (no SYN+FIN, SYN+RST, FIN+RST, FIN without ACK).","every byte string and declared length","2^(8n) byte strings",[R+"tcp/fpp.py:TcpParser"])
p("C75","Handling a TCP event always ends","Every call of the session's state machine (segment, syscall or tick) returns or raises, however many segments wait in the out-of-order queue: the queue is drained by recursion, and each level takes one segment out of it.","every session state and input","unbounded queues",[R+"tcp/session.py:tcp_fsm,_process_ack_packet"])
p("C76","Start-up configures the advertised addresses","With automatic configuration, start-up ends without an exception for every router advertisement, with the link-local address and one address per advertised prefix (prefix and modified EUI-64 identifier, the router as gateway) for which duplicate address detection got no answer. (False in one way: a second or late answer to the detection for one address makes start-up refuse the next.)","every MAC address, router advertisement and schedule of what is heard during start-up","schedules and unbounded prefix lists",[S+"packet_handler.py:_create_stack_ip6_addressing",L+"ip6_address.py:Ip6Network.eui64"])
p("C77","Networks, hosts and masks in text","Text of the form address/n names, for every address and n up to the length of an address, the network of the addresses that share the first n bits with it and the host with that address in that network; a greater n and text without exactly one slash are rejected. What str() gives for a mask, a network or a host is read back as the same mask, network or address and network; distinct ones print differently. str_to_ip and ip_version recognise the text of every address.","all addresses, prefix lengths, networks and hosts","2^128 addresses times 129 lengths; equality in the code is by printed text",[L+"ip4_address.py:Ip4Mask,Ip4Network,Ip4Host",L+"ip6_address.py:Ip6Mask,Ip6Network,Ip6Host",L+"ip_helper.py:str_to_ip,ip_version"])
p("C78","Received TCP segments reach their connection unaltered","A frame that brings the stack a TCP segment with a right checksum, well-formed options and flags some TCP sends is handed to exactly one socket: the one connected to this peer, or else, for a plain SYN, the one listening at the destination address, or else the one listening for all addresses; and that socket is told the ports, sequence and acknowledgement numbers, flags, window, MSS, window scale and data that RFC 9293 reads from the bytes. If there is none, a reset is sent.","every frame, segment and option list, and every history of socket calls","2^(8n) byte strings and unbounded histories",[R+"tcp/phrx.py:_phrx_tcp",R+"tcp/fpp.py:TcpParser",R+"tcp/metadata.py:TcpMetadata",R+"ip4/fpp.py",R+"ip6/fpp.py"])
p("C79","connect succeeds exactly when the peer can be addressed","connect on a socket raises no exception exactly if the port is in range, the peer is an address of the socket's family (for TCP not the unspecified one), a local port is set or left, and the socket has a local address or the stack has one towards the peer: on the peer's network, or else with a gateway. Then the socket is registered with that peer and local address and port, and no other socket changes; otherwise nothing is registered or sent. sendto towards a peer without such an address raises and sends nothing.","every history of socket calls, configuration of addresses, peer and port","unbounded histories and configurations",[L+"socket.py:_set_ip_addresses",R+"udp/socket.py:connect,sendto",R+"tcp/socket.py:connect",L+"ip_helper.py:pick_local_ip_address"])
p("C80","Sockets are given only what the network brought","Whatever datagram or segment the stack gives a socket, its source and destination, ports, flags, numbers and data are those of a UDP datagram or TCP segment with a valid checksum that the received frames brought for one of the stack's addresses: in one IP packet that is not a fragment, or as fragments, every byte having been in a fragment with the same source, destination and identification at the same place, the end of the datagram being where the last of these fragments ends and a fragment that ends the datagram having been there. It goes to the socket it belongs to, once. The same holds for the segments that make the stack answer with a reset.","all finite sequences of received frames (any bytes, any clock, any change of addresses and sockets between them) and all histories of socket calls","Corruption, reordering, duplication and mixing of fragments give an unbounded set of frame sequences; tests show some that work.",["pytcp/protocols/udp/phrx.py:_phrx_udp","pytcp/protocols/tcp/phrx.py:_phrx_tcp","pytcp/protocols/ip4/phrx.py:_defragment_ip4_packet","pytcp/protocols/ip6_ext_frag/phrx.py:_defragment_ip6_packet","pytcp/protocols/ether/phrx.py:_phrx_ether"])
p("C81","A TCP connection between two hosts carries the byte streams intact","When two applications are connected through this stack, one by connect and one by listen, over a network that may lose, repeat, delay and reorder segments, and in which anybody may send resets, then at every moment and in both directions what receive has returned (and has waiting) is a prefix of what the other side has sent with send. No byte is lost: what an application has sent is what has reached the other side, up to some point, followed by what is still in its transmit buffer. An end goes on to its FIN only when everything it has sent has reached the other side, and an end that has taken the FIN has everything.","all pairs of sessions (any initial numbers, addresses and ports), all interleavings of calls, timer runs, clock ticks and arrivals at both ends, and all losses, repetitions and orders of the segments between them","The interleavings of two state machines and an unreliable network are unbounded; tests run one end against scripted segments.",["pytcp/protocols/tcp/session.py:TcpSession","pytcp/protocols/tcp/session.py:_process_ack_packet","pytcp/protocols/tcp/session.py:_transmit_data","pytcp/protocols/tcp/session.py:_retransmit_packet_timeout","pytcp/protocols/tcp/socket.py:TcpSocket"])
p("C82","Routers are told of the multicast groups","After any history of address assignments and removals and of joins and leaves, the last listener report the stack has sent lists exactly the multicast groups it is a member of, each once, except that of all nodes; and every change of the membership is reported.","every history of assignments, removals, joins and leaves","histories with groups that are shared and rejoined",[S+"packet_handler.py:_send_icmp6_multicast_listener_report,_assign_ip6_multicast,_remove_ip6_multicast"])
p("C83","TCP segments on the wire","Every segment that a connection sends, whatever has happened to it before, goes out as one Ethernet frame that holds one unfragmented IP packet with the local and remote addresses of the connection and one well-formed TCP segment, in which a receiver finds the ports, flags, numbers and data of the connection and, in a SYN, the maximum segment size 1460; and a stack to which the frame is addressed gives exactly that to the socket of the connection.","every connection, every history of it, every segment it sends; every stack, route and link address","the flags, numbers and lengths that a connection can send are an invariant over all of its histories",[S+"packet_handler.py:send_tcp_packet",R+"tcp/phtx.py:_phtx_tcp",R+"tcp/session.py:_transmit_packet",R+"tcp/fpa.py:TcpAssembler",R+"ip4/fpa.py:Ip4Assembler",R+"ip6/fpa.py:Ip6Assembler",R+"ether/fpa.py:EtherAssembler"])
p("C84","One connection among many carries its byte streams intact","Two hosts run this stack with any number of sockets, listeners and connections, to each other and to others. For a connection between them (a pair of addresses and ports that each host has used for one connection), whatever else arrives at the hosts and whatever the applications do on other sockets, what one application has been given, and what waits for it, is a prefix of what the other has sent; nothing is lost; and an end goes on to its FIN, or reports the end of the stream, only when everything has been carried.","all histories of both hosts: calls on all sockets, segments of all connections and from anybody, timers; all losses, repetitions and orders of the segments between them","The sockets share the registry of sessions and one network; that no segment of another connection is taken for one of this one is a property of all histories of both hosts.",[R+"tcp/phrx.py:_phrx_tcp",R+"tcp/session.py:TcpSession",R+"tcp/socket.py:TcpSocket",R+"tcp/metadata.py:TcpMetadata"])
p("C85","Over a working network connections are set up and data arrive in time","When the network delivers every segment in order within d <= 400 ms, two ends of the stack are connected at the latest 3*d+3 ms after the connect; everything an application has sent is with the other end after at most 2*d+104 ms for every 1460 bytes that wait; no connection is given up; and no byte is sent twice.","all applications (what is sent and received, when, in pieces of any size), all delays up to d of every segment, all d up to 400 ms, all initial sequence numbers and lengths within the 32-bit range","Progress within a time bound is a statement about all schedules of two timers, two delayed-acknowledgement timers, the slow-start window and the network; a test runs one of them.",[R+"tcp/session.py:TcpSession",R+"tcp/session.py:TcpSession._transmit_data",R+"tcp/session.py:TcpSession._delayed_ack",R+"tcp/session.py:TcpSession._retransmit_packet_timeout"])
p("C86","The loss of a segment is made good","When a segment is lost it is sent again, and the connection carries on as if it had only been delayed: whichever one segment is lost (SYN, SYN|ACK, ACK or data), both ends remain connected and the data arrive.","all histories of the session up to the loss, all applications, all segments that can be lost","The retransmission runs on timers of the sender and on what the receiver does with a segment it has seen before; which of the segments is lost, and in which state of both ends, is a matter of all schedules.",[R+"tcp/session.py:TcpSession._retransmit_packet_timeout",R+"tcp/session.py:TcpSession._tcp_fsm_established",R+"tcp/session.py:TcpSession._tcp_fsm_syn_rcvd",R+"tcp/session.py:TcpSession._transmit_packet"])
p("C87","Packet statistics account for every received packet","The counters of received packets can be trusted: every frame is counted once as received; at every layer what is received is what was dropped, for one reason, plus what was accepted, as one sort of destination; what a layer receives is what the layer below accepted; and a counter that names an action (a reply sent, a cache entry made, a datagram or segment handed to a socket, a reset sent) equals the number of times the stack did that.","all sequences of received frames (any bytes), each in any state of the stack","the counters are sums over everything ever received; a test compares them after a few packets of each kind",["pytcp/lib/packet_stats.py:PacketStatsRx",R+"ether/phrx.py:_phrx_ether",R+"ip4/phrx.py:_phrx_ip4",R+"ip6/phrx.py:_phrx_ip6",R+"udp/phrx.py:_phrx_udp",R+"tcp/phrx.py:_phrx_tcp"])
p("C88","What a host puts on the wire because of a frame or a call","A ping is answered with one frame to the link-layer address of the next hop, with the ping's identifier, number and data; a datagram or a segment for a closed port is answered with port unreachable or a reset; an ARP request or a neighbour solicitation for an address of the host is answered and its sender remembered, an answer is remembered and nothing is sent; sendto puts the datagram in one frame to the next hop and returns its length. If the next hop is unknown, the packet is lost, sendto returns 0, and exactly one request for the next hop's address goes out. A datagram for a socket is what its next recvfrom returns; after an ICMP unreachable about a socket's datagram the next recv raises connection refused. Nothing else changes in the host, and nothing else is sent.","all frames (bytes), hosts (addresses, routes, sockets after any history of calls, caches), data and ports","every layer takes part: a test sees one frame with one set of addresses and one state of the caches",[R+"ether/phtx.py:_phtx_ether",R+"ip4/phtx.py:_phtx_ip4",R+"ip6/phtx.py:_phtx_ip6",R+"icmp4/phrx.py:_phrx_icmp4",R+"icmp6/phrx.py:_phrx_icmp6",R+"arp/phrx.py:_phrx_arp",R+"udp/phrx.py:_phrx_udp",R+"tcp/phrx.py:_phrx_tcp",R+"udp/socket.py:sendto"])
p("C89","Two hosts on a link find each other and exchange datagrams","A host that sends a datagram to an unknown neighbour loses it, but what it broadcasts makes the neighbour answer (and remember the host), and the answer makes the host remember the neighbour, so that the next datagram is sent to it. A datagram sent by one host is what recvfrom at the other returns, with the sender's address and port; if no socket has the port, the answer makes the sender's next recv raise connection refused. Over IPv4 and IPv6. (A message whose checksum is computed wrong is lost, see C02.)","all pairs of hosts (addresses, sockets after any history of calls, caches), all data, times and ports","two stacks and both directions of the wire take part",[R+"arp/phrx.py:_phrx_arp",R+"icmp6/phrx.py:_phrx_icmp6",R+"ether/phtx.py:_phtx_ether",R+"udp/socket.py:sendto",R+"udp/socket.py:recvfrom",R+"udp/socket.py:recv"])
p("C90","A datagram received from another machine is one that it sent","Two machines run this stack, with a network between them that may lose, repeat, delay and reorder frames and on which there may be other machines, as long as nobody else uses the addresses of the two. Whatever has happened, when a UDP socket of one receives a datagram from the other's address, the other machine has sent a datagram with exactly this data, from this port, to this address and port: no datagram is mixed up with another, not even when datagrams are cut into fragments that arrive in any order.","all pairs of machines, all histories of frames, calls, timers and cache changes on both, all UDP sockets","fragments of all datagrams, in all orders, and everything else both machines do",[R+"ip4/phtx.py:_phtx_ip4",R+"ip6/phtx.py:_phtx_ip6",R+"ip6_ext_frag/phtx.py:_phtx_ip6_ext_frag",R+"ip4/phrx.py:_defragment_ip4_packet",R+"ip6_ext_frag/phrx.py:_defragment_ip6_packet",R+"udp/phrx.py:_phrx_udp",R+"udp/phtx.py:_phtx_udp"])
p("C91","A TCP connection between two machines is a reliable byte stream, down to the frames","Two machines run this stack, with a network between them as in C90. What the application at either end of a connection has been given is a prefix of what the application at the other end has sent. While an end may send, everything its application has sent has reached the other end up to some point and the rest is still in its transmit buffer. Once an end has sent its FIN, everything it sent has reached the other end; once an end has taken the other's FIN, it has been given everything the other has sent.","all pairs of machines, all histories of frames (bytes), calls, timers and cache changes on both, with any other connections and datagrams","as C84, with checksums, headers, fragmentation and address resolution in between",[R+"tcp/session.py:TcpSession",R+"tcp/phrx.py:_phrx_tcp",R+"tcp/phtx.py:_phtx_tcp",R+"ip4/phtx.py:_phtx_ip4",R+"ip4/phrx.py:_defragment_ip4_packet",R+"ether/phtx.py:_phtx_ether",S+"tx_ring.py:TxRing"])
p("C92","Packet statistics account for every packet sent","The counters of sent packets can be trusted: at every layer what it was given is what was dropped, for one reason, plus what went on to the next layer, whole or in fragments; the frames queued for the network are those counted as queued; a call that says a packet was dropped has counted it under the reason it gives; and the counters of protocols, messages, TCP flags and options say how many of each were asked for.","all sequences of packets to be sent (ARP, ICMPv4, ICMPv6, UDP, TCP), each in any state of the stack and with any answers of the ARP and ND caches","the counters are sums over everything ever sent; a test compares them after one packet of each kind",["pytcp/lib/packet_stats.py:PacketStatsTx",R+"ether/phtx.py:_phtx_ether",R+"ip4/phtx.py:_phtx_ip4",R+"ip6/phtx.py:_phtx_ip6",R+"ip6_ext_frag/phtx.py:_phtx_ip6_ext_frag",R+"udp/phtx.py:_phtx_udp",R+"tcp/phtx.py:_phtx_tcp",R+"icmp4/phtx.py:_phtx_icmp4",R+"icmp6/phtx.py:_phtx_icmp6",R+"arp/phtx.py:_phtx_arp"])
p("C93","Over a working network connections are closed in time","When the network delivers every segment in order within d <= 400 ms, an application closes a connection, possibly with data left to send, and the other one has nothing to send: then the other end has all the data and sees the end of the stream after at most 2*d+104 ms for every 1460 bytes left and d+3 ms more; when it has closed in turn, its session is gone after 2*d+3 ms, the first one after TIME_WAIT, 30 s and d+2 ms later; no RST is sent and no FIN twice. If the other end is sending at that moment, the FIN may never be sent.","all connections (which end closes, what was sent and received before, how much is left to send), all calls of the applications afterwards other than send, all times at which the second end closes, all delays up to d of every segment, all d up to 400 ms","closing takes both ends through five or six states while data, acknowledgements, FINs and four kinds of timers run; a test follows one interleaving",[R+"tcp/session.py:TcpSession._tcp_fsm_established",R+"tcp/session.py:TcpSession._tcp_fsm_fin_wait_1",R+"tcp/session.py:TcpSession._tcp_fsm_fin_wait_2",R+"tcp/session.py:TcpSession._tcp_fsm_close_wait",R+"tcp/session.py:TcpSession._tcp_fsm_last_ack",R+"tcp/session.py:TcpSession._tcp_fsm_time_wait",R+"tcp/session.py:TcpSession.close"])
p("C94","A lost segment is made good before a timer runs out","When data arrive from further on than expected, an open TCP connection keeps them and at once sends a bare acknowledgement that says what is missing, for the first two such segments and not again. An end that gets two of these acknowledgements for the data it has sent sends them again, from the first byte that is not acknowledged, the next time its timer runs, whatever its retransmission timer says. When the missing segment arrives, the data kept are delivered together with it.","every history of a connection over a network that loses, repeats, delays and reorders segments; every number of segments that arrive ahead; every amount of unacknowledged data","it needs every state of both ends at which a loss can happen, and every number of segments behind the gap; tests drop one segment of one exchange",[R+"tcp/session.py:TcpSession._retransmit_packet_request",R+"tcp/session.py:TcpSession._tcp_fsm_established",R+"tcp/session.py:TcpSession._process_ack_packet"])
p("C95","A stack gets the configuration its user asked for","TcpIpStack(...) accepts exactly the arguments that are readable addresses, with gateways that can be gateways. After start() the stack has the MAC address given; for IPv4 exactly the address, prefix length and gateway given, or those of the DHCP lease if none is given, or no IPv4 without a lease; for IPv6 the link-local address of the MAC address and the address given, with its prefix length and gateway, as far as nobody else has them, or those of automatic configuration if none is given. It takes exactly the frames and packets for these addresses, their broadcast addresses and groups.","every MAC address, IPv4 and IPv6 address, prefix length and gateway; arguments given or not; everything that can be received during start-up; every answer of a DHCP server","every combination of arguments, addresses and prefix lengths, and every sequence of frames while the addresses are claimed",["pytcp/__init__.py:TcpIpStack.__init__","pytcp/__init__.py:TcpIpStack.start",S+"packet_handler.py:PacketHandler.acquire_ip4_addresses",S+"packet_handler.py:PacketHandler.acquire_ip6_addresses",S+"packet_handler.py:PacketHandler._create_stack_ip4_addressing",S+"packet_handler.py:PacketHandler._create_stack_ip6_addressing"])
p("C96","Thread switches do not matter","However the threads of the application, of the packet handler and of the timer are switched in the middle of send, receive, connect and the handling of a segment or a timer, a connection behaves as if these had run one after another in some order: it sends the same segments, goes through the same states and delivers the same bytes; every byte that send accepted is sent at its place; and data that arrived never lies in the receive buffer while every receive call sleeps; and connect succeeds only if the connection was established. (False for send: a call that is under way when the application closes from another thread may succeed although its bytes are never sent.)","every interleaving of the steps of the three kinds of threads, every number of calls under way, every history of segments and timers","the number of interleavings is unbounded and a test sees those its scheduler happens to produce",[R+"tcp/session.py:send,receive,connect,tcp_fsm,_transmit_data,_process_ack_packet,_enqueue_rx_buffer,_retransmit_packet_timeout"])
p("C97","Timers and thread switches","However the timer thread is interrupted by other threads that register timers and methods, a timer of n milliseconds expires within one round of the n-th, a registered method runs exactly once in each round it is due in, and the timer thread goes on. (False: registering a new timer, or a new method, at the wrong moment of a round ends the timer thread for ever, loses the method for ever, or makes the timer expire at once.)","every interleaving of the steps of the timer thread with any number of registrations under way in other threads","the moments at which it goes wrong are a few instructions long, and a test hits them by luck",[S+"timer.py:Timer,TimerTask,register_timer,register_method,is_expired"])
p("C98","Packets sent in fragments by several threads","Whatever other threads are sending at the same time, the fragments of a packet carry one identification, which no other packet of the time has, so that a receiver that gets all of them puts the packet together, and never puts together something that was not sent. (False: the identification is read from a shared counter again for every fragment, so a datagram is lost when another thread begins to send a fragmented one to anywhere, and two sent to one address can arrive as a datagram nobody sent.)","every interleaving of any number of calls that send over IPv4 and IPv6, and every order, repetition and loss of the frames","tests send from one thread; mixing needs a thread switch between two fragments",[R+"ip4/phtx.py:_phtx_ip4",R+"ip6_ext_frag/phtx.py:_phtx_ip6_ext_frag",R+"ip6/phtx.py:_phtx_ip6"])
p("C99","Sockets used by several threads","Whatever several threads do with sockets at the same time: every datagram put into the queue of a socket is returned by exactly one call of recv or recvfrom, in order, and no call waits while one is there; a bound socket that is left alone gets the datagrams for it; no two sockets are bound to the same address and port; bind and connect do what they do on their own. (The last two are false: the table of sockets is searched and changed without a lock, so two threads can bind the same port, a call can raise RuntimeError because another thread binds or closes a socket, and a datagram for a socket that is being connected can be refused.)","every interleaving of the steps of any number of calls of socket, bind, connect, sendto, listen, close, recv and recvfrom, of sessions that begin and end, and of the receive thread with any datagrams","tests use one thread; the failures need a thread switch between the search of the table and the change",[L+"socket.py:_is_address_in_use",L+"socket.py:_pick_local_port",R+"udp/socket.py:bind",R+"udp/socket.py:connect",R+"udp/socket.py:sendto",R+"udp/socket.py:recv",R+"udp/socket.py:process_udp_packet",R+"udp/phrx.py:_phrx_udp",R+"tcp/socket.py:bind"])
p("C100","Neighbour caches used by several threads","While lookups, additions and the maintenance of the ARP or neighbour cache go on at the same time in different threads: a lookup returns the MAC address last learned for the address and not removed by the moment it looks, or nothing and then a request is sent; what was learned stays at least an hour unless something newer is learned; entries over an hour old are removed at the next visit of the maintenance thread, which visits every entry in each round and never dies; nothing else is removed.","all addresses and MAC addresses, all numbers of lookups under way, all clock readings, all interleavings of the steps of the threads","interleavings are unbounded and a test has no control over when the interpreter switches threads; the window in which a new entry is lost is a few bytecodes wide",[S+"arp_cache.py:find_entry",S+"arp_cache.py:add_entry",S+"arp_cache.py:__thread_maintain_cache",S+"nd_cache.py:find_entry",S+"nd_cache.py:add_entry",S+"nd_cache.py:__thread_maintain_cache"])
p("C101","Frame queues, thread switches, start and stop","Whatever the order in which threads put frames into a frame queue, take frames out of it and are started and stopped: no frame is lost or taken twice; frames are written (or handled) in the order in which they were put in, each within a bounded number of steps of the thread that empties the queue, even if its announcement is late; no thread ends by an exception; after stop the thread leaves its loop in a bounded number of steps, taking at most one more frame, and the frames left are dealt with after the next start.","all frames, all numbers of threads putting frames in, all interleavings of the steps, all moments of start and stop","interleavings are unbounded and a test has no control over thread switches; the window between stop and start is a tenth of a second wide but depends on the load",[S+"tx_ring.py:enqueue",S+"tx_ring.py:__thread_transmit",S+"tx_ring.py:start",S+"tx_ring.py:stop",S+"rx_ring.py:dequeue",S+"rx_ring.py:__thread_receive",S+"packet_handler.py:__thread_packet_handler",S+"packet_handler.py:start",S+"packet_handler.py:stop"])
p("C102","The UDP echo service","The UDP echo service, once started, answers every datagram that is delivered to its socket, once and in order, to the address and port it came from: with the message itself, or with a picture if the message names one; the answer leaves from the service's port and from the address that was asked; a client that sends a message gets the answer from recvfrom; no message can end the service.","all messages, senders, host configurations, and all orders of frames and turns of the service's thread","the property quantifies over all histories of datagrams, over all senders (also those to whom there is no way back) and over all address configurations; tests use one client on the same network",["examples/udp_echo_service.py:service","examples/lib/udp_service.py:__thread_service","examples/lib/malpi.py:malpi",R+"udp/socket.py:recvfrom",R+"udp/socket.py:sendto",L+"socket.py:_set_ip_addresses",L+"ip_helper.py:pick_local_ip_address"])
p("C103","The TCP echo service","A client that connects to the TCP echo service gets the greeting, and then for each piece that the service reads the piece itself, in order, each once (or a picture when the piece names one): a client that sends none of the service's words gets its own bytes back, however they are cut into pieces, all of them before the closing message; the service says that the client has closed only when it has; after quit, close, bye or exit, or when the client has closed, the service says so, closes the connection and its thread ends; and the thread does not end before that.","all clients of this stack, all networks that lose, repeat, delay and reorder segments, all schedules of the service's thread against the stack's, all byte streams and ways of cutting them","The pieces that the service reads depend on the timing of segments, timers and threads; a test sees one cut.",["examples/tcp_echo_service.py:TcpEchoService","examples/tcp_echo_service.py:service","examples/lib/tcp_service.py:TcpService",R+"tcp/socket.py:send",R+"tcp/socket.py:recv"])
p("C104","Two hosts with the same address","If a host on the link uses an IPv6 address, then another stack that starts with the same address as a candidate asks for it in a way that makes the user of the address answer, and does not take the address when the answer arrives while it waits, whatever other frames it handles meanwhile; an address that nobody claims is taken.  The same for IPv4 with ARP probes.","every pair of hosts and their addresses, groups and caches, every candidate, every list of frames handled before, during and after the wait","the exchange goes through both stacks byte by byte (source selection, checksums, group membership) and depends on what else arrives meanwhile",[S+"packet_handler.py:_perform_ip6_nd_dad",S+"packet_handler.py:_create_stack_ip6_addressing",S+"packet_handler.py:_send_icmp6_nd_dad_message",S+"packet_handler.py:_send_arp_probe",R+"icmp6/phrx.py:_phrx_icmp6",R+"ip6/phtx.py:_validate_src_ip6_address",R+"arp/phrx.py:_phrx_arp"])
p("C105","The TCP echo service and all its clients","While the TCP echo service runs, every connection that is established with it is accepted, in order, and served by a thread of its own; every client is sent the greeting and the replies to what it has sent itself, in order, and nothing of what is sent on other connections, whatever the other clients and programs on both hosts do; when the client has closed, the service closes.  After stop() no more clients are served, and none is left with an open connection that nobody serves.","every history of the two hosts: all sockets, sessions and threads, every number of clients, every schedule of the threads, every order, loss and duplication of segments","the threads, the clients and the stack interleave in more ways than can be tried, and one connection's bytes must not reach another in any of them",["examples/lib/tcp_service.py:TcpService.__thread_service","examples/lib/tcp_service.py:TcpService.stop","examples/tcp_echo_service.py:TcpEchoService.service",R+"tcp/socket.py:TcpSocket.accept",R+"tcp/session.py:TcpSession._tcp_fsm_listen"])
p("C106","Exactly the messages that are in order are accepted","An ARP, UDP, ICMP or ICMPv6 message is accepted if its checksum is right for the addresses it came with and its type, code, lengths and counts are those of the RFCs, and only then; everything else is dropped by the parser.","every byte string, every pair of addresses and hop limit","both directions of an acceptance condition, over all inputs",[R+"arp/fpp.py:ArpParser",R+"udp/fpp.py:UdpParser",R+"icmp4/fpp.py:Icmp4Parser",R+"icmp6/fpp.py:_packet_integrity_check",R+"icmp6/fpp.py:_packet_sanity_check"])
p("C107","Exactly the frames, packets and segments that are in order are accepted","An Ethernet frame, IPv4 packet, IPv6 packet, IPv6 fragment header or TCP segment is accepted if its lengths, version, checksum, source address, flags, ports and options are those of the RFCs, and only then; everything else is dropped by the parser.","every byte string, with every link-layer padding, every pair of addresses","both directions of an acceptance condition, over all inputs; the options are a walk of any length",[R+"ether/fpp.py:EtherParser",R+"ip4/fpp.py:_packet_integrity_check",R+"ip4/fpp.py:_packet_sanity_check",R+"ip6/fpp.py:Ip6Parser",R+"ip6_ext_frag/fpp.py:Ip6ExtFragParser",R+"tcp/fpp.py:_packet_integrity_check",R+"tcp/fpp.py:_packet_sanity_check"])
p("C108","Names of sockets and timers tell them apart","Sockets are kept under a text made of family, type, addresses and ports, and timers under a text made of a connection's addresses and ports and what the timer is for. Two sockets have the same text exactly if they agree in all six parts; the texts under which the socket of a received segment or datagram is looked for are those of the sockets meant; the port read back out of a text is the local port. Two timers have the same name exactly if they are the same timer of connections with the same addresses and ports; so in the one timer all connections share, each finds its timers as if it had them to itself, whatever the others do.","all sockets, addresses and ports, IPv4 and IPv6, all received segments and datagrams, all histories of setting timers and of time by any number of connections","there are more pairs of names than can be tried, and a collision would mix up two connections only for particular addresses",[L+"socket.py:Socket.__str__",R+"tcp/session.py:TcpSession.__str__",R+"tcp/metadata.py:TcpMetadata.tcp_listening_socket_patterns",R+"udp/metadata.py:UdpMetadata.socket_patterns",S+"timer.py:Timer"])
p("C109","Equality and hashes of addresses","Two MAC addresses, IP addresses, masks, networks or hosts compare equal exactly if they are of one sort and denote the same (for a host: address and network, not the gateway), although the code compares their printed forms; what is equal has the same hash, so that caches, sets and dictionaries find it.","all pairs of MAC addresses, IPv4 and IPv6 addresses, masks, networks and hosts","every pair of values matters: two addresses that print alike would share a cache entry",[L+"ip_address.py:IpAddress.__eq__",L+"ip_address.py:IpAddress.__hash__",L+"ip_address.py:IpNetwork.__eq__",L+"ip_address.py:IpHost.__eq__",L+"mac_address.py:MacAddress.__eq__"])
p("C110","No frame ends the receive thread","Whatever frame arrives, the receive code deals with it without an exception, so that the thread goes on to the next frame. False: a cut off TCP segment, a cut off TCP, IPv4 or neighbour discovery option, an odd neighbour discovery message, a router solicitation to the group of all routers, and a TCP segment past the last sequence number that is answered with a reset each end the thread. Every other frame that is not a fragment is handled without an exception, in every state of the host.","all frames up to the MTU, all states of the host, all times","one frame among all that can arrive is enough to make the host deaf for good",[S+"packet_handler.py:PacketHandler.__thread_packet_handler",R+"ether/phrx.py:_phrx_ether",R+"tcp/fpp.py:TcpParser",R+"tcp/phrx.py:_phrx_tcp",R+"icmp6/fpp.py:Icmp6Parser",R+"ip4/fpp.py:Ip4Parser"])
p("C111","Exactly which texts are IPv6 addresses","A text is accepted as an IPv6 address exactly if it is one of the text forms of RFC 4291 (section 2.2): eight hexadecimal groups, of which the last two may be given as a dotted number, or fewer with one '::' for the zeros left out; and the address is the one the text stands for. False in one case: a text with six groups and a dotted number, without '::', is refused. Every text that is not accepted is refused with the format error (with ValueError if it holds a NUL character).","every text, every address","There are infinitely many texts, and two recognisers (a regular expression and the system's inet_pton) must agree on all of them.",[L+"ip6_address.py:IP6_REGEX",L+"ip6_address.py:Ip6Address.__init__"])
p("C112","The UDP daytime and discard services","The UDP daytime service, once started, answers every datagram that is delivered to its socket, once and in order, to the address and port it came from, with the date and time at which it answers, written so that they can be read back; no message can end it.  The UDP discard service reads every datagram that is delivered to its socket, once and in order, never ends, and is silent: what the host sends, what its other sockets get and its caches are as if the service never ran.","all datagrams, senders, host configurations, clock readings, and all orders of frames and turns of the services' threads","the property quantifies over all histories of datagrams and over all senders, and silence compares two runs over every history; tests use one client on the same network",["examples/udp_daytime_service.py:service","examples/udp_discard_service.py:service","examples/lib/udp_service.py:__thread_service",R+"udp/socket.py:recvfrom",R+"udp/socket.py:sendto"])
p("C113","Exactly which texts are IPv4 addresses","A text is accepted as an IPv4 address exactly if it is four decimal numbers below 256 with dots between them, and the address is the one with these four numbers; every other text is refused with the format error.  False for texts with white space in them, of which only the part before is read, and for numbers with leading zeros, which are read as octal.","every text, every address","There are infinitely many texts, and a regular expression that is only searched for and the lenient inet_aton must together accept the right ones.",[L+"ip4_address.py:IP4_REGEX",L+"ip4_address.py:Ip4Address.__init__"])
p("C114","The TCP discard and daytime services","A client that connects to the TCP discard service gets the greeting and nothing more until the end, whatever it sends; the service reads all that the client sends, in order; after quit, close, bye or exit, or when the client has closed, it says so, closes the connection and its thread ends, and the thread does not end before that.  A client that connects to the TCP daytime service gets the greeting and then lines with the times at which they are sent, in order, as many as the service was made to send, or without end; the thread does not end before that unless it is stopped or the connection can carry no more, and then it closes the connection.","all clients of this stack, all networks that lose, repeat, delay and reorder segments, all schedules of the services' threads against the stack's, all byte streams and ways of cutting them, all clock readings","What the services read and when their calls come depends on the timing of segments, timers and threads; tests see one order of these.",["examples/tcp_discard_service.py:service","examples/tcp_daytime_service.py:service",R+"tcp/socket.py:send",R+"tcp/socket.py:recv",R+"tcp/socket.py:close",R+"tcp/session.py:receive"])
p("C115","The ICMP echo client","The ICMP echo client sends echo requests, all with one identifier and with the sequence numbers 0, 1, 2 and so on, each with the time at which it is sent as data, whatever the host receives in between; it sends as many as it was told, or goes on until it is stopped.  Each request leaves as one frame to the next hop when that is known, from the client's address or, if it has none, from the address of the host that the routing rules choose.  An IPv4 or IPv6 address can be pinged.","all hosts, all addresses, all message counts, all histories of received frames, cache changes and turns of the client's thread, all clock readings","A test sends a few requests; a client that is left to run sends without end, and what the host receives in between is arbitrary.",["examples/icmp_echo_client.py:__thread_client",S+"packet_handler.py:send_icmp4_packet",S+"packet_handler.py:send_icmp6_packet",R+"icmp4/phtx.py:_phtx_icmp4",R+"icmp6/phtx.py:_phtx_icmp6",R+"icmp4/fpa.py:__init__",R+"icmp6/fpa.py:__init__"])
p("C116","The TCP echo client","The TCP echo client sends as many messages as it was told, all of the form and size asked for, and nothing when the connection is not made; the other end gets these messages in order, and all of them when it has seen the client close.  The client closes its connection when it has sent its messages, when send fails, or when it is stopped; a failing connect or send does not end its thread by an exception.","all message counts and sizes, all histories of both ends, all losses, duplications and reorderings of segments, all schedules of the client's thread","A test uses one count, one size and a network that loses nothing; the client is made to run without end.",["examples/tcp_echo_client.py:__thread_client","examples/tcp_echo_client.py:stop",R+"tcp/socket.py:connect",R+"tcp/socket.py:send",R+"tcp/socket.py:close",R+"tcp/session.py:connect"])
p("C117","The UDP echo client","The UDP echo client opens a socket for the address and port it is given, from its own address or the one the routing rules choose, and sends messages of the form and size asked for, as many as it was told or until it is stopped, each as one datagram from its socket to the other, whatever the host receives in between; it ends when it is stopped, has sent all, or learns that nobody hears at the other end, and its socket is closed whenever it has ended.  An IPv4 or IPv6 address can be reached.","all hosts, addresses, ports, message counts and sizes, all histories of received frames, cache changes and turns of the client's thread","A test sends a few messages to one address; what the host receives in between and when the thread runs is arbitrary, and a leaked socket shows only at the next start.",["examples/udp_echo_client.py:__thread_client",R+"udp/socket.py:bind",R+"udp/socket.py:connect",R+"udp/socket.py:send",R+"udp/socket.py:close",L+"socket.py:_set_ip_addresses"])
with open('/verif/properties.jsonl','w') as f:
    for x in P: f.write(json.dumps(x)+"\n")
print(len(P))
